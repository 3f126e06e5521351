import Verif.Props.Spin
import Verif.Spec.Impact

/-!
# C80: a single contact gives the textbook impulse

One frictionless contact between two bodies that touch nothing else, or between a body and a resting one.
-/

noncomputable section

namespace LcpPhysics
open Spec

/-- Momentum balance of a body that is held by no joint and touched by contact `k` only. -/
theorem body_balance {bs : List Body} {js : List Joint} {cs : List Contact} {f : ℕ → V3} {v v' l : Vec}
    {pn a b g : ℕ → ℝ} (h : ContactLaw bs js cs f v v' l pn a b g) {i k : ℕ} (hi : i < bs.length) (hk : k < cs.length)
    (hj : ∀ j ∈ js, j.i1 ≠ i ∧ i ∉ j.i2)
    (hc : ∀ (q : ℕ) (hq : q < cs.length), q ≠ k → cs[q].i1 ≠ i ∧ cs[q].i2 ≠ i)
    (hmu : meanFriction bs cs[k] = 0) (u : Vec) :
    (bodyAt bs i).ang_inertia * v' (3 * i) * u (3 * i) +
      (bodyAt bs i).mass * (v' (3 * i + 1) * u (3 * i + 1) + v' (3 * i + 2) * u (3 * i + 2)) =
    (bodyAt bs i).ang_inertia * v (3 * i) * u (3 * i) +
      (bodyAt bs i).mass * (v (3 * i + 1) * u (3 * i + 1) + v (3 * i + 2) * u (3 * i + 2)) +
      ((f i).r * u (3 * i) + (f i).x * u (3 * i + 1) + (f i).y * u (3 * i + 2)) +
      pn k * normalVel cs[k] (onlyOn (· = i) u) := by
  have hd := h.dynamics (onlyOn (· = i) u)
  have hj0 : jointPower js l (onlyOn (· = i) u) = 0 := by
    apply jointPower_zero
    intro x hx
    obtain ⟨j, hjm, hx⟩ := List.mem_flatMap.1 hx
    refine jointVel_out (S := (· = i)) ?_ u x hx
    simp only [holds, decide_eq_true_eq, not_or, not_exists, not_and]
    exact ⟨(hj j hjm).1, fun k hk hki => (hj j hjm).2 (hki ▸ hk)⟩
  have hc0 : contactPower cs pn (fun i => a i - b i) (onlyOn (· = i) u) =
      pn k * normalVel cs[k] (onlyOn (· = i) u) := by
    unfold contactPower
    rw [Finset.sum_eq_single k]
    · rw [List.getElem?_eq_getElem hk]
      simp only
      have h0 := h.cone k hk
      rw [hmu] at h0
      have hn := h.nonneg k hk
      have : a k - b k = 0 := by
        have : a k = 0 := by linarith [h0.1]
        have : b k = 0 := by linarith [h0.1]
        linarith
      rw [this]; ring
    · intro q hq hqk
      have hq := Finset.mem_range.1 hq
      rw [List.getElem?_eq_getElem hq]
      have := hc q hq hqk
      have ht : ¬ touches (· = i) cs[q] = true := by simpa [touches] using this
      simp [normalVel, slipVel, contactVel_out ht, Spec.inner]
    · intro hn; exact absurd (Finset.mem_range.2 hk) hn
  have hs : (Finset.range bs.length).filter (· = i) = {i} := by
    ext k
    simp only [Finset.mem_filter, Finset.mem_range, Finset.mem_singleton]
    constructor
    · exact fun h => h.2
    · rintro rfl; exact ⟨hi, rfl⟩
  rw [hj0, hc0, momentumPower_onlyOn, momentumPower_onlyOn, forcePower_onlyOn, hs] at hd
  simp only [Finset.sum_singleton, twist, add_zero] at hd
  exact hd

/-- The body on the first side is kicked along the normal, -/
theorem kick_first {bs : List Body} {js : List Joint} {cs : List Contact} {f : ℕ → V3} {v v' l : Vec}
    {pn a b g : ℕ → ℝ} (h : ContactLaw bs js cs f v v' l pn a b g) {k : ℕ} (hk : k < cs.length)
    (hi : cs[k].i1 < bs.length) (hne : cs[k].i1 ≠ cs[k].i2)
    (hj : ∀ j ∈ js, j.i1 ≠ cs[k].i1 ∧ cs[k].i1 ∉ j.i2)
    (hc : ∀ (q : ℕ) (hq : q < cs.length), q ≠ k → cs[q].i1 ≠ cs[k].i1 ∧ cs[q].i2 ≠ cs[k].i1)
    (hmu : meanFriction bs cs[k] = 0) (hm : 0 < (bodyAt bs cs[k].i1).mass)
    (hI : 0 < (bodyAt bs cs[k].i1).ang_inertia) :
    twist v' cs[k].i1 = kicked (bodyAt bs cs[k].i1).mass (bodyAt bs cs[k].i1).ang_inertia cs[k].p1 cs[k].normal (pn k)
      (freeTwist bs f v cs[k].i1) := by
  set c := cs[k] with hcdef
  have key := fun u => body_balance h hi hk hj hc hmu u
  have hn : ∀ u : Vec, normalVel cs[k] (onlyOn (· = c.i1) u) = along1 c (twist u c.i1) := by
    intro u
    rw [← hcdef]
    unfold normalVel contactVel
    rw [twist_onlyOn, twist_onlyOn, if_pos rfl, if_neg (Ne.symm hne), pointVel_zero, sub_zero]
    rfl
  have k1 := key fun k => if k = 3 * c.i1 then 1 else 0
  have k2 := key fun k => if k = 3 * c.i1 + 1 then 1 else 0
  have k3 := key fun k => if k = 3 * c.i1 + 2 then 1 else 0
  have q1 : 3 * c.i1 + 1 ≠ 3 * c.i1 := by omega
  have q2 : 3 * c.i1 + 2 ≠ 3 * c.i1 := by omega
  have q3 : 3 * c.i1 ≠ 3 * c.i1 + 1 := by omega
  have q4 : 3 * c.i1 + 2 ≠ 3 * c.i1 + 1 := by omega
  have q5 : 3 * c.i1 ≠ 3 * c.i1 + 2 := by omega
  have q6 : 3 * c.i1 + 1 ≠ 3 * c.i1 + 2 := by omega
  rw [hn] at k1 k2 k3
  simp only [if_true, if_neg q1, if_neg q2, if_neg q3, if_neg q4, if_neg q5, if_neg q6, along1, twist, pointVel,
    Spec.inner] at k1 k2 k3
  simp only [twist, kicked, freeTwist, det]
  refine V3.ext ?_ ?_ ?_ <;> simp only <;> field_simp <;> linarith

/-- the one on the second side against it. -/
theorem kick_second {bs : List Body} {js : List Joint} {cs : List Contact} {f : ℕ → V3} {v v' l : Vec}
    {pn a b g : ℕ → ℝ} (h : ContactLaw bs js cs f v v' l pn a b g) {k : ℕ} (hk : k < cs.length)
    (hi : cs[k].i2 < bs.length) (hne : cs[k].i1 ≠ cs[k].i2)
    (hj : ∀ j ∈ js, j.i1 ≠ cs[k].i2 ∧ cs[k].i2 ∉ j.i2)
    (hc : ∀ (q : ℕ) (hq : q < cs.length), q ≠ k → cs[q].i1 ≠ cs[k].i2 ∧ cs[q].i2 ≠ cs[k].i2)
    (hmu : meanFriction bs cs[k] = 0) (hm : 0 < (bodyAt bs cs[k].i2).mass)
    (hI : 0 < (bodyAt bs cs[k].i2).ang_inertia) :
    twist v' cs[k].i2 = kicked (bodyAt bs cs[k].i2).mass (bodyAt bs cs[k].i2).ang_inertia cs[k].p2 cs[k].normal
      (-pn k) (freeTwist bs f v cs[k].i2) := by
  set c := cs[k] with hcdef
  have key := fun u => body_balance h hi hk hj hc hmu u
  have hn : ∀ u : Vec, normalVel cs[k] (onlyOn (· = c.i2) u) = -along2 c (twist u c.i2) := by
    intro u
    rw [← hcdef]
    unfold normalVel contactVel
    rw [twist_onlyOn, twist_onlyOn, if_pos rfl, if_neg hne, pointVel_zero, zero_sub]
    simp only [along2, Spec.inner, Prod.fst_neg, Prod.snd_neg]; ring
  have k1 := key fun k => if k = 3 * c.i2 then 1 else 0
  have k2 := key fun k => if k = 3 * c.i2 + 1 then 1 else 0
  have k3 := key fun k => if k = 3 * c.i2 + 2 then 1 else 0
  have q1 : 3 * c.i2 + 1 ≠ 3 * c.i2 := by omega
  have q2 : 3 * c.i2 + 2 ≠ 3 * c.i2 := by omega
  have q3 : 3 * c.i2 ≠ 3 * c.i2 + 1 := by omega
  have q4 : 3 * c.i2 + 2 ≠ 3 * c.i2 + 1 := by omega
  have q5 : 3 * c.i2 ≠ 3 * c.i2 + 2 := by omega
  have q6 : 3 * c.i2 + 1 ≠ 3 * c.i2 + 2 := by omega
  rw [hn] at k1 k2 k3
  simp only [if_true, if_neg q1, if_neg q2, if_neg q3, if_neg q4, if_neg q5, if_neg q6, along2, twist, pointVel,
    Spec.inner] at k1 k2 k3
  simp only [twist, kicked, freeTwist, det]
  refine V3.ext ?_ ?_ ?_ <;> simp only <;> field_simp <;> linarith

/-- A complementarity problem in one variable. -/
theorem scalar_lcp {K w P : ℝ} (hK : 0 < K) (hP : 0 ≤ P) (h1 : 0 ≤ w + K * P) (h2 : P * (w + K * P) = 0) :
    P = max 0 (-w / K) := by
  rcases mul_eq_zero.1 h2 with h | h
  · rw [h, max_eq_left]
    rw [h] at h1
    rw [div_nonpos_iff]
    exact Or.inr ⟨by linarith, hK.le⟩
  · have : P = -w / K := by field_simp; linarith
    rw [← this, max_eq_right hP]

/-- C80: two otherwise free bodies in one frictionless contact.  The impulse is the textbook one: the (restitution
corrected) approach speed over the sum of the inverse effective masses, if the bodies approach, and zero otherwise;
each body is kicked by it along the normal at its contact point. -/
theorem C80_impulse_of_two (bs : List Body) (js : List Joint) (cs : List Contact) (f : ℕ → V3) (v v' l : Vec)
    (pn a b g : ℕ → ℝ) (h : ContactLaw bs js cs f v v' l pn a b g) (k : ℕ) (hk : k < cs.length)
    (hi : cs[k].i1 < bs.length ∧ cs[k].i2 < bs.length ∧ cs[k].i1 ≠ cs[k].i2)
    (hj : ∀ j ∈ js, (j.i1 ≠ cs[k].i1 ∧ cs[k].i1 ∉ j.i2) ∧ j.i1 ≠ cs[k].i2 ∧ cs[k].i2 ∉ j.i2)
    (hc : ∀ (q : ℕ) (hq : q < cs.length), q ≠ k →
      (cs[q].i1 ≠ cs[k].i1 ∧ cs[q].i2 ≠ cs[k].i1) ∧ cs[q].i1 ≠ cs[k].i2 ∧ cs[q].i2 ≠ cs[k].i2)
    (hn : cs[k].normal ≠ 0) (hmu : meanFriction bs cs[k] = 0)
    (hm : 0 < (bodyAt bs cs[k].i1).mass ∧ 0 < (bodyAt bs cs[k].i1).ang_inertia ∧
      0 < (bodyAt bs cs[k].i2).mass ∧ 0 < (bodyAt bs cs[k].i2).ang_inertia) :
    pn k = max 0 (-(along1 cs[k] (freeTwist bs f v cs[k].i1) - along2 cs[k] (freeTwist bs f v cs[k].i2) +
      meanRestitution bs cs[k] * normalVel cs[k] v) / (yield1 bs cs[k] + yield2 bs cs[k])) ∧
    twist v' cs[k].i1 = kicked (bodyAt bs cs[k].i1).mass (bodyAt bs cs[k].i1).ang_inertia cs[k].p1 cs[k].normal (pn k)
      (freeTwist bs f v cs[k].i1) ∧
    twist v' cs[k].i2 = kicked (bodyAt bs cs[k].i2).mass (bodyAt bs cs[k].i2).ang_inertia cs[k].p2 cs[k].normal
      (-pn k) (freeTwist bs f v cs[k].i2) := by
  obtain ⟨m1, I1, m2, I2⟩ := hm
  have e1 := kick_first h hk hi.1 hi.2.2 (fun j hjm => (hj j hjm).1) (fun q hq hqk => (hc q hq hqk).1) hmu m1 I1
  have e2 := kick_second h hk hi.2.1 hi.2.2 (fun j hjm => (hj j hjm).2) (fun q hq hqk => (hc q hq hqk).2) hmu m2 I2
  refine ⟨?_, e1, e2⟩
  obtain ⟨r1, r2⟩ := h.restitution k hk
  set c := cs[k] with hcdef
  have hnn : 0 < Spec.inner c.normal c.normal := by
    have h0 : 0 ≤ Spec.inner c.normal c.normal := by
      simp only [Spec.inner]; nlinarith [mul_self_nonneg c.normal.1, mul_self_nonneg c.normal.2]
    refine lt_of_le_of_ne h0 fun h0 => hn ?_
    simp only [Spec.inner] at h0
    have a1 : c.normal.1 * c.normal.1 = 0 := by
      nlinarith [mul_self_nonneg c.normal.1, mul_self_nonneg c.normal.2]
    have a2 : c.normal.2 * c.normal.2 = 0 := by
      nlinarith [mul_self_nonneg c.normal.1, mul_self_nonneg c.normal.2]
    exact Prod.ext (mul_self_eq_zero.1 a1) (mul_self_eq_zero.1 a2)
  have hK : 0 < yield1 bs c + yield2 bs c := by
    have : 0 < yield1 bs c := by unfold yield1; positivity
    have : 0 < yield2 bs c := by unfold yield2; positivity
    linarith
  have hvn : normalVel c v' = along1 c (freeTwist bs f v c.i1) - along2 c (freeTwist bs f v c.i2) +
      (yield1 bs c + yield2 bs c) * pn k := by
    unfold normalVel contactVel
    rw [e1, e2]
    simp only [kicked, along1, along2, yield1, yield2, Spec.inner, pointVel, det, Prod.fst_sub, Prod.snd_sub]
    field_simp
    ring
  rw [hvn] at r1 r2
  refine scalar_lcp hK (h.nonneg k hk).1 (by linarith) ?_
  rw [← r2]; ring

theorem normal_sq_pos {n : V2} (hn : n ≠ 0) : 0 < Spec.inner n n := by
  have h0 : 0 ≤ Spec.inner n n := by
    simp only [Spec.inner]; nlinarith [mul_self_nonneg n.1, mul_self_nonneg n.2]
  refine lt_of_le_of_ne h0 fun h0 => hn ?_
  simp only [Spec.inner] at h0
  have a1 : n.1 * n.1 = 0 := by nlinarith [mul_self_nonneg n.1, mul_self_nonneg n.2]
  have a2 : n.2 * n.2 = 0 := by nlinarith [mul_self_nonneg n.1, mul_self_nonneg n.2]
  exact Prod.ext (mul_self_eq_zero.1 a1) (mul_self_eq_zero.1 a2)

/-- C80: a body touching only a resting one: the second body does not yield. -/
theorem C80_impulse_on_rest (bs : List Body) (js : List Joint) (cs : List Contact) (f : ℕ → V3) (v v' l : Vec)
    (pn a b g : ℕ → ℝ) (h : ContactLaw bs js cs f v v' l pn a b g) (k : ℕ) (hk : k < cs.length)
    (hi : cs[k].i1 < bs.length ∧ cs[k].i1 ≠ cs[k].i2) (hrest : Rests v v' cs[k].i2)
    (hj : ∀ j ∈ js, j.i1 ≠ cs[k].i1 ∧ cs[k].i1 ∉ j.i2)
    (hc : ∀ (q : ℕ) (hq : q < cs.length), q ≠ k → cs[q].i1 ≠ cs[k].i1 ∧ cs[q].i2 ≠ cs[k].i1)
    (hn : cs[k].normal ≠ 0) (hmu : meanFriction bs cs[k] = 0)
    (hm : 0 < (bodyAt bs cs[k].i1).mass ∧ 0 < (bodyAt bs cs[k].i1).ang_inertia) :
    pn k = max 0 (-(along1 cs[k] (freeTwist bs f v cs[k].i1) +
      meanRestitution bs cs[k] * along1 cs[k] (twist v cs[k].i1)) / yield1 bs cs[k]) ∧
    twist v' cs[k].i1 = kicked (bodyAt bs cs[k].i1).mass (bodyAt bs cs[k].i1).ang_inertia cs[k].p1 cs[k].normal (pn k)
      (freeTwist bs f v cs[k].i1) := by
  have e1 := kick_first h hk hi.1 hi.2 hj hc hmu hm.1 hm.2
  refine ⟨?_, e1⟩
  obtain ⟨m1, I1⟩ := hm
  obtain ⟨r1, r2⟩ := h.restitution k hk
  set c := cs[k] with hcdef
  have hnn := normal_sq_pos hn
  have hK : 0 < yield1 bs c := by unfold yield1; positivity
  have hv0 : normalVel c v = along1 c (twist v c.i1) := by
    unfold normalVel contactVel
    rw [hrest.1, pointVel_zero, sub_zero]; rfl
  have hvn : normalVel c v' = along1 c (freeTwist bs f v c.i1) + yield1 bs c * pn k := by
    unfold normalVel contactVel
    rw [e1, hrest.2, pointVel_zero, sub_zero]
    simp only [kicked, along1, yield1, Spec.inner, pointVel, det]
    field_simp
    ring
  rw [hvn, hv0] at r1 r2
  refine scalar_lcp hK (h.nonneg k hk).1 (by linarith) ?_
  rw [← r2]; ring

/-- C80: the same when the resting body is named first. -/
theorem C80_impulse_on_rest_flipped (bs : List Body) (js : List Joint) (cs : List Contact) (f : ℕ → V3) (v v' l : Vec)
    (pn a b g : ℕ → ℝ) (h : ContactLaw bs js cs f v v' l pn a b g) (k : ℕ) (hk : k < cs.length)
    (hi : cs[k].i2 < bs.length ∧ cs[k].i1 ≠ cs[k].i2) (hrest : Rests v v' cs[k].i1)
    (hj : ∀ j ∈ js, j.i1 ≠ cs[k].i2 ∧ cs[k].i2 ∉ j.i2)
    (hc : ∀ (q : ℕ) (hq : q < cs.length), q ≠ k → cs[q].i1 ≠ cs[k].i2 ∧ cs[q].i2 ≠ cs[k].i2)
    (hn : cs[k].normal ≠ 0) (hmu : meanFriction bs cs[k] = 0)
    (hm : 0 < (bodyAt bs cs[k].i2).mass ∧ 0 < (bodyAt bs cs[k].i2).ang_inertia) :
    pn k = max 0 ((along2 cs[k] (freeTwist bs f v cs[k].i2) +
      meanRestitution bs cs[k] * along2 cs[k] (twist v cs[k].i2)) / yield2 bs cs[k]) ∧
    twist v' cs[k].i2 = kicked (bodyAt bs cs[k].i2).mass (bodyAt bs cs[k].i2).ang_inertia cs[k].p2 cs[k].normal
      (-pn k) (freeTwist bs f v cs[k].i2) := by
  have e1 := kick_second h hk hi.1 hi.2 hj hc hmu hm.1 hm.2
  refine ⟨?_, e1⟩
  obtain ⟨m1, I1⟩ := hm
  obtain ⟨r1, r2⟩ := h.restitution k hk
  set c := cs[k] with hcdef
  have hnn := normal_sq_pos hn
  have hK : 0 < yield2 bs c := by unfold yield2; positivity
  have hv0 : normalVel c v = -along2 c (twist v c.i2) := by
    unfold normalVel contactVel
    rw [hrest.1, pointVel_zero, zero_sub]
    simp only [along2, Spec.inner, Prod.fst_neg, Prod.snd_neg]; ring
  have hvn : normalVel c v' = -along2 c (freeTwist bs f v c.i2) + yield2 bs c * pn k := by
    unfold normalVel contactVel
    rw [e1, hrest.2, pointVel_zero, zero_sub]
    simp only [kicked, along2, yield2, Spec.inner, pointVel, det, Prod.fst_neg, Prod.snd_neg]
    field_simp
    ring
  rw [hvn, hv0] at r1 r2
  have := scalar_lcp (w := -(along2 c (freeTwist bs f v c.i2) + meanRestitution bs c * along2 c (twist v c.i2))) hK
    (h.nonneg k hk).1 (by linarith) (by rw [← r2]; ring)
  rwa [neg_neg] at this

/-- C80: bouncing off a resting body.  With unit normal, central contact and no force the normal component of the
velocity turns into `-e` times itself if the body approaches, and nothing else changes: for `e = 1` a mirror. -/
theorem C80_bounce (bs : List Body) (js : List Joint) (cs : List Contact) (f : ℕ → V3) (v v' l : Vec)
    (pn a b g : ℕ → ℝ) (h : ContactLaw bs js cs f v v' l pn a b g) (k : ℕ) (hk : k < cs.length)
    (hi : cs[k].i1 < bs.length ∧ cs[k].i1 ≠ cs[k].i2) (hrest : Rests v v' cs[k].i2)
    (hj : ∀ j ∈ js, j.i1 ≠ cs[k].i1 ∧ cs[k].i1 ∉ j.i2)
    (hc : ∀ (q : ℕ) (hq : q < cs.length), q ≠ k → cs[q].i1 ≠ cs[k].i1 ∧ cs[q].i2 ≠ cs[k].i1)
    (hn : Spec.inner cs[k].normal cs[k].normal = 1) (hcen : det cs[k].p1 cs[k].normal = 0)
    (hmu : meanFriction bs cs[k] = 0) (he : 0 ≤ meanRestitution bs cs[k]) (hf : f cs[k].i1 = 0)
    (hm : 0 < (bodyAt bs cs[k].i1).mass ∧ 0 < (bodyAt bs cs[k].i1).ang_inertia) :
    let n := cs[k].normal
    let u := twist v cs[k].i1
    let s := min 0 (Spec.inner n (u.x, u.y))
    twist v' cs[k].i1 = ⟨u.r, u.x - (1 + meanRestitution bs cs[k]) * s * n.1,
      u.y - (1 + meanRestitution bs cs[k]) * s * n.2⟩ := by
  have hn0 : cs[k].normal ≠ 0 := by
    intro h0; rw [h0] at hn; simp [Spec.inner] at hn
  obtain ⟨hp, hv⟩ := C80_impulse_on_rest bs js cs f v v' l pn a b g h k hk hi hrest hj hc hn0 hmu hm
  obtain ⟨m1, I1⟩ := hm
  set c := cs[k] with hcdef
  have hfree : freeTwist bs f v c.i1 = twist v c.i1 := by
    unfold freeTwist
    rw [hf]
    apply V3.ext <;> simp
  have hy : yield1 bs c = 1 / (bodyAt bs c.i1).mass := by
    unfold yield1; rw [hn, hcen]; simp
  have hal : along1 c (twist v c.i1) = Spec.inner c.normal ((twist v c.i1).x, (twist v c.i1).y) := by
    simp only [along1, Spec.inner, pointVel, det] at hcen ⊢
    linear_combination (twist v c.i1).r * hcen
  rw [hfree, hal, hy] at hp
  rw [hfree] at hv
  intro n u s
  have hP : pn k = -((1 + meanRestitution bs c) * (bodyAt bs c.i1).mass * s) := by
    rw [hp]
    have : -(Spec.inner c.normal ((twist v c.i1).x, (twist v c.i1).y) + meanRestitution bs c *
        Spec.inner c.normal ((twist v c.i1).x, (twist v c.i1).y)) / (1 / (bodyAt bs c.i1).mass) =
        -((1 + meanRestitution bs c) * (bodyAt bs c.i1).mass * Spec.inner n (u.x, u.y)) := by
      field_simp; rfl
    rw [this]
    have hpos : 0 ≤ (1 + meanRestitution bs c) * (bodyAt bs c.i1).mass := by positivity
    rcases le_total 0 (Spec.inner n (u.x, u.y)) with h0 | h0
    · have hs : s = 0 := min_eq_left h0
      rw [hs, max_eq_left (by nlinarith)]; ring
    · have hs : s = Spec.inner n (u.x, u.y) := min_eq_right h0
      rw [hs, max_eq_right (by nlinarith)]
  rw [hv, hP]
  simp only [kicked, hcen]
  apply V3.ext
  · simp; rfl
  · show _ = (twist v c.i1).x - (1 + meanRestitution bs c) * s * c.normal.1
    simp only
    field_simp
    ring
  · show _ = (twist v c.i1).y - (1 + meanRestitution bs c) * s * c.normal.2
    simp only
    field_simp
    ring

/-- C80: bouncing when the resting body is named first; the normal then points away from it the other way. -/
theorem C80_bounce_flipped (bs : List Body) (js : List Joint) (cs : List Contact) (f : ℕ → V3) (v v' l : Vec)
    (pn a b g : ℕ → ℝ) (h : ContactLaw bs js cs f v v' l pn a b g) (k : ℕ) (hk : k < cs.length)
    (hi : cs[k].i2 < bs.length ∧ cs[k].i1 ≠ cs[k].i2) (hrest : Rests v v' cs[k].i1)
    (hj : ∀ j ∈ js, j.i1 ≠ cs[k].i2 ∧ cs[k].i2 ∉ j.i2)
    (hc : ∀ (q : ℕ) (hq : q < cs.length), q ≠ k → cs[q].i1 ≠ cs[k].i2 ∧ cs[q].i2 ≠ cs[k].i2)
    (hn : Spec.inner cs[k].normal cs[k].normal = 1) (hcen : det cs[k].p2 cs[k].normal = 0)
    (hmu : meanFriction bs cs[k] = 0) (he : 0 ≤ meanRestitution bs cs[k]) (hf : f cs[k].i2 = 0)
    (hm : 0 < (bodyAt bs cs[k].i2).mass ∧ 0 < (bodyAt bs cs[k].i2).ang_inertia) :
    let n := cs[k].normal
    let u := twist v cs[k].i2
    let s := max 0 (Spec.inner n (u.x, u.y))
    twist v' cs[k].i2 = ⟨u.r, u.x - (1 + meanRestitution bs cs[k]) * s * n.1,
      u.y - (1 + meanRestitution bs cs[k]) * s * n.2⟩ := by
  have hn0 : cs[k].normal ≠ 0 := by
    intro h0; rw [h0] at hn; simp [Spec.inner] at hn
  obtain ⟨hp, hv⟩ := C80_impulse_on_rest_flipped bs js cs f v v' l pn a b g h k hk hi hrest hj hc hn0 hmu hm
  obtain ⟨m1, I1⟩ := hm
  set c := cs[k] with hcdef
  have hfree : freeTwist bs f v c.i2 = twist v c.i2 := by
    unfold freeTwist
    rw [hf]
    apply V3.ext <;> simp
  have hy : yield2 bs c = 1 / (bodyAt bs c.i2).mass := by
    unfold yield2; rw [hn, hcen]; simp
  have hal : along2 c (twist v c.i2) = Spec.inner c.normal ((twist v c.i2).x, (twist v c.i2).y) := by
    simp only [along2, Spec.inner, pointVel, det] at hcen ⊢
    linear_combination (twist v c.i2).r * hcen
  rw [hfree, hal, hy] at hp
  rw [hfree] at hv
  intro n u s
  have hP : pn k = (1 + meanRestitution bs c) * (bodyAt bs c.i2).mass * s := by
    rw [hp]
    have : (Spec.inner c.normal ((twist v c.i2).x, (twist v c.i2).y) + meanRestitution bs c *
        Spec.inner c.normal ((twist v c.i2).x, (twist v c.i2).y)) / (1 / (bodyAt bs c.i2).mass) =
        (1 + meanRestitution bs c) * (bodyAt bs c.i2).mass * Spec.inner n (u.x, u.y) := by
      field_simp; rfl
    rw [this]
    have hpos : 0 ≤ (1 + meanRestitution bs c) * (bodyAt bs c.i2).mass := by positivity
    rcases le_total 0 (Spec.inner n (u.x, u.y)) with h0 | h0
    · have hs : s = Spec.inner n (u.x, u.y) := max_eq_right h0
      rw [hs, max_eq_right (by nlinarith)]
    · have hs : s = 0 := max_eq_left h0
      rw [hs, max_eq_left (by nlinarith)]; ring
  rw [hv, hP]
  simp only [kicked, hcen]
  apply V3.ext
  · simp; rfl
  · show _ = (twist v c.i2).x - (1 + meanRestitution bs c) * s * c.normal.1
    simp only
    field_simp
    ring
  · show _ = (twist v c.i2).y - (1 + meanRestitution bs c) * s * c.normal.2
    simp only
    field_simp
    ring

/-- C80: two equal masses in a central elastic contact, no forces: approaching, they exchange the normal components of
their velocities. -/
theorem C80_equal_masses_exchange (bs : List Body) (js : List Joint) (cs : List Contact) (f : ℕ → V3) (v v' l : Vec)
    (pn a b g : ℕ → ℝ) (h : ContactLaw bs js cs f v v' l pn a b g) (k : ℕ) (hk : k < cs.length)
    (hi : cs[k].i1 < bs.length ∧ cs[k].i2 < bs.length ∧ cs[k].i1 ≠ cs[k].i2)
    (hj : ∀ j ∈ js, (j.i1 ≠ cs[k].i1 ∧ cs[k].i1 ∉ j.i2) ∧ j.i1 ≠ cs[k].i2 ∧ cs[k].i2 ∉ j.i2)
    (hc : ∀ (q : ℕ) (hq : q < cs.length), q ≠ k →
      (cs[q].i1 ≠ cs[k].i1 ∧ cs[q].i2 ≠ cs[k].i1) ∧ cs[q].i1 ≠ cs[k].i2 ∧ cs[q].i2 ≠ cs[k].i2)
    (hn : Spec.inner cs[k].normal cs[k].normal = 1)
    (hcen : det cs[k].p1 cs[k].normal = 0 ∧ det cs[k].p2 cs[k].normal = 0) (hmu : meanFriction bs cs[k] = 0)
    (he : meanRestitution bs cs[k] = 1) (hf : f cs[k].i1 = 0 ∧ f cs[k].i2 = 0)
    (hm : 0 < (bodyAt bs cs[k].i1).mass ∧ 0 < (bodyAt bs cs[k].i1).ang_inertia ∧
      (bodyAt bs cs[k].i2).mass = (bodyAt bs cs[k].i1).mass ∧ 0 < (bodyAt bs cs[k].i2).ang_inertia)
    (happ : normalVel cs[k] v ≤ 0) :
    let n := cs[k].normal
    let u1 := twist v cs[k].i1
    let u2 := twist v cs[k].i2
    let s1 := Spec.inner n (u1.x, u1.y)
    let s2 := Spec.inner n (u2.x, u2.y)
    twist v' cs[k].i1 = ⟨u1.r, u1.x + (s2 - s1) * n.1, u1.y + (s2 - s1) * n.2⟩ ∧
    twist v' cs[k].i2 = ⟨u2.r, u2.x + (s1 - s2) * n.1, u2.y + (s1 - s2) * n.2⟩ := by
  have hn0 : cs[k].normal ≠ 0 := by
    intro h0; rw [h0] at hn; simp [Spec.inner] at hn
  obtain ⟨m1, I1, m2, I2⟩ := hm
  obtain ⟨hp, hv1, hv2⟩ := C80_impulse_of_two bs js cs f v v' l pn a b g h k hk hi hj hc hn0 hmu
    ⟨m1, I1, m2 ▸ m1, I2⟩
  set c := cs[k] with hcdef
  have hfree : ∀ i, f i = 0 → freeTwist bs f v i = twist v i := by
    intro i hf
    unfold freeTwist
    rw [hf]
    apply V3.ext <;> simp
  intro n u1 u2 s1 s2
  have a1 : along1 c (twist v c.i1) = s1 := by
    have := hcen.1
    simp only [along1, Spec.inner, pointVel, det, s1, u1, n] at this ⊢
    linear_combination (twist v c.i1).r * this
  have a2 : along2 c (twist v c.i2) = s2 := by
    have := hcen.2
    simp only [along2, Spec.inner, pointVel, det, s2, u2, n] at this ⊢
    linear_combination (twist v c.i2).r * this
  have hnv : normalVel c v = s1 - s2 := by
    rw [← a1, ← a2]
    simp only [normalVel, contactVel, along1, along2, Spec.inner, Prod.fst_sub, Prod.snd_sub]; ring
  have hP : pn k = (bodyAt bs c.i1).mass * (s2 - s1) := by
    rw [hp, hfree _ hf.1, hfree _ hf.2, a1, a2, he, hnv]
    have : yield1 bs c + yield2 bs c = 2 / (bodyAt bs c.i1).mass := by
      unfold yield1 yield2
      rw [hn, hcen.1, hcen.2, m2]
      field_simp; ring
    rw [this, max_eq_right]
    · field_simp; ring
    · have : s1 - s2 ≤ 0 := hnv ▸ happ
      apply div_nonneg _ (by positivity)
      linarith
  rw [hv1, hv2, hfree _ hf.1, hfree _ hf.2, hP, m2]
  simp only [kicked, hcen.1, hcen.2]
  refine ⟨V3.ext ?_ ?_ ?_, V3.ext ?_ ?_ ?_⟩
  · simp; rfl
  · simp only; field_simp; rfl
  · simp only; field_simp; rfl
  · simp; rfl
  · show _ = (twist v c.i2).x + (s1 - s2) * c.normal.1
    simp only; field_simp; ring
  · show _ = (twist v c.i2).y + (s1 - s2) * c.normal.2
    simp only; field_simp; ring

/-! ## Examples -/

/-- The ball of `dividedWorld` hits the fixed circle with speed 1 and leaves with speed `e`. -/
example (e x : ℝ) (he : 0 ≤ e) : ∃ v' l pn a b g, ContactLaw (dividedWorld e x).bodies (dividedWorld e x).joints
    (dividedWorld e x).contacts (fun _ => 0) (dividedWorld e x).v v' l pn a b g ∧ twist v' 0 = ⟨0, -e, 0⟩ := by
  obtain ⟨v', l, pn, a, b, g, h⟩ := divided_solvable e x
  refine ⟨v', l, pn, a, b, g, h, ?_⟩
  have := C80_bounce _ _ _ _ _ _ _ _ _ _ _ h 0 (by simp [dividedWorld]) (by simp [dividedWorld])
    ((divided_island e x h).contacts _ (List.getElem_mem (by simp [dividedWorld])) |>.1 (by simp [dividedWorld])
      |>.resolve_left (by simp [dividedWorld]))
    (by
      intro j hj
      simp [dividedWorld, mkTotal] at hj
      subst hj
      simp [dividedWorld])
    (by
      intro q hq hq0
      have : q = 1 := by simp [dividedWorld] at hq; omega
      subst this
      simp [dividedWorld])
    (by simp [dividedWorld, Spec.inner]) (by simp [dividedWorld, det])
    (by simp [dividedWorld, meanFriction, bodyAt, unitCircle])
    (by simpa [dividedWorld, meanRestitution, bodyAt, unitCircle] using he) rfl
    (by simp [dividedWorld, bodyAt, unitCircle])
  simp only at this
  have h0 : (dividedWorld e x).contacts[0]'(by simp [dividedWorld]) =
    { normal := (-1, 0), p1 := (1, 0), p2 := (-1, 0), pen := 0, i1 := 0, i2 := 1 } := rfl
  rw [h0] at this
  simp only at this
  rw [this]
  have hr : meanRestitution (dividedWorld e x).bodies
    { normal := (-1, 0), p1 := (1, 0), p2 := (-1, 0), pen := 0, i1 := 0, i2 := 1 } = e := by
    simp [dividedWorld, meanRestitution, bodyAt, unitCircle]
  rw [hr]
  simp [dividedWorld, twist, Spec.inner]

/-- The two circles of `spinWorld` exchange their velocities and keep their spins. -/
example : ∃ v' l pn a b g, ContactLaw spinWorld.bodies spinWorld.joints spinWorld.contacts (fun _ => 0) spinWorld.v
    v' l pn a b g ∧ twist v' 0 = ⟨5, -1, 0⟩ ∧ twist v' 1 = ⟨7, 1, 0⟩ := by
  obtain ⟨v', l, pn, a, b, g, h, -⟩ := C74_common_restitution spinWorld spinWorld_inv.joints spinWorld_inv.contacts
    (by
      intro b hb
      simp [spinWorld] at hb
      rcases hb with rfl | rfl <;> simp [unitCircle])
    (by
      intro c hc
      simp [spinWorld] at hc
      subst hc
      simp [spinWorld, spinContact, meanFriction, bodyAt, unitCircle])
    1
    (by
      intro c hc
      simp [spinWorld] at hc
      subst hc
      simp [spinWorld, spinContact, meanRestitution, bodyAt, unitCircle])
    (by simp [spinWorld, jointVels]) (fun _ => 0)
  refine ⟨v', l, pn, a, b, g, h, ?_⟩
  have := C80_equal_masses_exchange _ _ _ _ _ _ _ _ _ _ _ h 0 (by simp [spinWorld])
    (by simp [spinWorld, spinContact]) (by intro j hj; cases hj)
    (by
      intro q hq hq0
      simp [spinWorld] at hq
      omega)
    (by simp [spinWorld, spinContact, Spec.inner]) (by simp [spinWorld, spinContact, det])
    (by simp [spinWorld, spinContact, meanFriction, bodyAt, unitCircle])
    (by simp [spinWorld, spinContact, meanRestitution, bodyAt, unitCircle]) ⟨rfl, rfl⟩
    (by simp [spinWorld, spinContact, bodyAt, unitCircle])
    (by simp [spinWorld, spinContact, normalVel, contactVel, pointVel, twist, cat3, Spec.inner])
  have h0 : spinWorld.contacts[0]'(by simp [spinWorld]) = spinContact := rfl
  rw [h0] at this
  simp only [spinContact] at this
  obtain ⟨t1, t2⟩ := this
  rw [t1, t2]
  simp [spinWorld, twist, Spec.inner, cat3]

/-- A fixed circle and a ball approaching it; the fixed one is named first in the contact. -/
def wallFirst (e : ℝ) : World (Option Mat) Unit :=
  { t := 0, dt := 1, eps := 0, tol := 0, post_stab := false, strict_no_pen := true,
    bodies := [unitCircle 0 e 0, unitCircle 2 e 0],
    joints := [mkTotal [unitCircle 0 e 0, unitCircle 2 e 0] 0],
    v := fun k => if k = 4 then -1 else 0,
    contacts := [{ normal := (-1, 0), p1 := (1, 0), p2 := (-1, 0), pen := 0, i1 := 0, i2 := 1 }],
    eng := none, fnd := () }

/-- It bounces off. -/
example (e : ℝ) (he : 0 ≤ e) : ∃ v' l pn a b g, ContactLaw (wallFirst e).bodies (wallFirst e).joints
    (wallFirst e).contacts (fun _ => 0) (wallFirst e).v v' l pn a b g ∧ twist v' 1 = ⟨0, e, 0⟩ := by
  obtain ⟨v', l, pn, a, b, g, h, -⟩ := C74_common_restitution (wallFirst e)
    (by
      intro j hj
      simp [wallFirst, mkTotal] at hj
      subst hj
      simp [wallFirst])
    (by
      intro c hc
      simp [wallFirst] at hc
      subst hc
      simp [wallFirst])
    (by
      intro b hb
      simp [wallFirst] at hb
      rcases hb with rfl | rfl <;> simp [unitCircle])
    (by
      intro c hc
      simp [wallFirst] at hc
      subst hc
      simp [wallFirst, meanFriction, bodyAt, unitCircle])
    e
    (by
      intro c hc
      simp [wallFirst] at hc
      subst hc
      simp [wallFirst, meanRestitution, bodyAt, unitCircle])
    (by simp [wallFirst, jointVels, jointVel, mkTotal, twist]) (fun _ => 0)
  refine ⟨v', l, pn, a, b, g, h, ?_⟩
  have hr : Rests (wallFirst e).v v' 0 := by
    have := h.joints
    simp [wallFirst, jointVels, jointVel, mkTotal, twist] at this
    refine ⟨?_, ?_⟩
    · simp [twist, wallFirst]; rfl
    · simp [twist, this]; rfl
  have := C80_bounce_flipped _ _ _ _ _ _ _ _ _ _ _ h 0 (by simp [wallFirst]) (by simp [wallFirst]) hr
    (by
      intro j hj
      simp [wallFirst, mkTotal] at hj
      subst hj
      simp [wallFirst])
    (by
      intro q hq hq0
      simp [wallFirst] at hq
      omega)
    (by simp [wallFirst, Spec.inner]) (by simp [wallFirst, det])
    (by simp [wallFirst, meanFriction, bodyAt, unitCircle])
    (by simpa [wallFirst, meanRestitution, bodyAt, unitCircle] using he) rfl
    (by simp [wallFirst, bodyAt, unitCircle])
  simp only at this
  have h0 : (wallFirst e).contacts[0]'(by simp [wallFirst]) =
    { normal := (-1, 0), p1 := (1, 0), p2 := (-1, 0), pen := 0, i1 := 0, i2 := 1 } := rfl
  rw [h0] at this
  simp only at this
  rw [this]
  have hr : meanRestitution (wallFirst e).bodies
    { normal := (-1, 0), p1 := (1, 0), p2 := (-1, 0), pen := 0, i1 := 0, i2 := 1 } = e := by
    simp [wallFirst, meanRestitution, bodyAt, unitCircle]
  rw [hr]
  simp [wallFirst, twist, Spec.inner]

end LcpPhysics
