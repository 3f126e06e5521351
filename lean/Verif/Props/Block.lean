import Verif.Props.Rub
import Verif.Spec.Block

/-! # C100: a block lying flat on a surface: closed form of the outcome, and when it tips over -/

noncomputable section

namespace LcpPhysics
open Spec

/-- Momentum balance of a body that is held by no joint. -/
theorem body_balance_many {bs : List Body} {js : List Joint} {cs : List Contact} {f : ℕ → V3} {v v' l : Vec}
    {pn a b g : ℕ → ℝ} (h : ContactLaw bs js cs f v v' l pn a b g) {i : ℕ} (hi : i < bs.length)
    (hj : ∀ j ∈ js, j.i1 ≠ i ∧ i ∉ j.i2) (u : Vec) :
    (bodyAt bs i).ang_inertia * v' (3 * i) * u (3 * i) +
      (bodyAt bs i).mass * (v' (3 * i + 1) * u (3 * i + 1) + v' (3 * i + 2) * u (3 * i + 2)) =
    (bodyAt bs i).ang_inertia * v (3 * i) * u (3 * i) +
      (bodyAt bs i).mass * (v (3 * i + 1) * u (3 * i + 1) + v (3 * i + 2) * u (3 * i + 2)) +
      ((f i).r * u (3 * i) + (f i).x * u (3 * i + 1) + (f i).y * u (3 * i + 2)) +
      contactPower cs pn (fun i => a i - b i) (onlyOn (· = i) u) := by
  have hd := h.dynamics (onlyOn (· = i) u)
  have hj0 : jointPower js l (onlyOn (· = i) u) = 0 := by
    apply jointPower_zero
    intro x hx
    obtain ⟨j, hjm, hx⟩ := List.mem_flatMap.1 hx
    refine jointVel_out (S := (· = i)) ?_ u x hx
    simp only [holds, decide_eq_true_eq, not_or, not_exists, not_and]
    exact ⟨(hj j hjm).1, fun k hk hki => (hj j hjm).2 (hki ▸ hk)⟩
  have hs : (Finset.range bs.length).filter (· = i) = {i} := by
    ext k
    simp only [Finset.mem_filter, Finset.mem_range, Finset.mem_singleton]
    constructor
    · exact fun h => h.2
    · rintro rfl; exact ⟨hi, rfl⟩
  rw [hj0, momentumPower_onlyOn, momentumPower_onlyOn, forcePower_onlyOn, hs] at hd
  simp only [Finset.sum_singleton, twist, add_zero] at hd
  exact hd

/-- What the contact sees of the body's velocity. -/
theorem pressesAt_vel {c : Contact} {v v' : Vec} {i : ℕ} {ν : V2} {ρ X : ℝ} (hν : Spec.inner ν ν = 1)
    (h : PressesAt c v v' i ν ρ X) (u : Vec) (hu : (c.i1 ≠ i → twist u c.i1 = 0) ∧ (c.i2 ≠ i → twist u c.i2 = 0)) :
    normalVel c u = lift ν (twist u i) + X * (twist u i).r ∧ slipVel c u = glide ν (twist u i) + ρ * (twist u i).r := by
  simp only [Spec.inner] at hν
  rcases h with ⟨rfl, h2, hn, hp, -, -⟩ | ⟨rfl, h2, hn, hp, -, -⟩
  · have := hu.2 h2
    unfold normalVel slipVel contactVel lift glide
    rw [this, hn, hp, pointVel_zero, sub_zero]
    simp only [Spec.inner, pointVel, tangent, Prod.smul_fst, Prod.smul_snd, smul_eq_mul, Prod.fst_sub, Prod.snd_sub]
    constructor
    · linear_combination X * (twist u c.i1).r * hν
    · linear_combination ρ * (twist u c.i1).r * hν
  · have := hu.1 h2
    unfold normalVel slipVel contactVel lift glide
    rw [this, hn, hp, pointVel_zero, zero_sub, tangent_neg]
    simp only [Spec.inner, pointVel, tangent, Prod.smul_fst, Prod.smul_snd, smul_eq_mul, Prod.fst_neg, Prod.snd_neg,
      Prod.fst_sub, Prod.snd_sub]
    constructor
    · linear_combination X * (twist u c.i2).r * hν
    · linear_combination ρ * (twist u c.i2).r * hν

theorem pressesAt_rest {c : Contact} {v v' : Vec} {i : ℕ} {ν : V2} {ρ X : ℝ} (h : PressesAt c v v' i ν ρ X) :
    ((c.i1 ≠ i → twist v c.i1 = 0) ∧ (c.i2 ≠ i → twist v c.i2 = 0)) ∧
    ((c.i1 ≠ i → twist v' c.i1 = 0) ∧ (c.i2 ≠ i → twist v' c.i2 = 0)) ∧ (c.i1 = i ∨ c.i2 = i) := by
  rcases h with ⟨h1, h2, -, -, h3, h4⟩ | ⟨h1, h2, -, -, h3, h4⟩
  · exact ⟨⟨fun h => absurd h1 h, fun _ => h3⟩, ⟨fun h => absurd h1 h, fun _ => h4⟩, .inl h1⟩
  · exact ⟨⟨fun _ => h3, fun h => absurd h1 h⟩, ⟨fun _ => h4, fun h => absurd h1 h⟩, .inr h1⟩

/-- The total impulses on a block: what the law says about them. -/
theorem flat_impulses {bs : List Body} {js : List Joint} {cs : List Contact} {f : ℕ → V3} {v v' l : Vec}
    {pn a b g : ℕ → ℝ} (h : ContactLaw bs js cs f v v' l pn a b g) {i : ℕ} (hi : i < bs.length) {ν : V2}
    {ρ A μ : ℝ} (hν : Spec.inner ν ν = 1) (hj : ∀ j ∈ js, j.i1 ≠ i ∧ i ∉ j.i2)
    (hf : LiesFlat bs cs v v' i ν ρ A μ) (hm : 0 < (bodyAt bs i).mass ∧ 0 < (bodyAt bs i).ang_inertia)
    (h0 : lift ν (twist v i) = 0 ∧ (twist v i).r = 0) :
    let u := freeTwist bs f v i
    let u' := twist v' i
    let m := (bodyAt bs i).mass
    let I := (bodyAt bs i).ang_inertia
    ∃ P Q M, 0 ≤ P ∧ |Q| ≤ μ * P ∧ |M| ≤ A * P ∧
      m * lift ν u' = m * lift ν u + P ∧ m * glide ν u' = m * glide ν u + Q ∧ I * u'.r = I * u.r + M + ρ * Q ∧
      0 ≤ lift ν u' - A * |u'.r| ∧ P * lift ν u' + M * u'.r = 0 ∧
      (0 < glide ν u' + ρ * u'.r → Q = -(μ * P)) ∧ (glide ν u' + ρ * u'.r < 0 → Q = μ * P) := by
  classical
  intro u u' m I
  obtain ⟨hm, hI⟩ := hm
  -- the contacts that touch the block
  let T : Finset ℕ := (Finset.range cs.length).filter fun q => ∀ hq : q < cs.length, cs[q].i1 = i ∨ cs[q].i2 = i
  have hT : ∀ q ∈ T, ∃ hq : q < cs.length, cs[q].i1 = i ∨ cs[q].i2 = i := by
    intro q hq
    obtain ⟨h1, h2⟩ := Finset.mem_filter.1 hq
    exact ⟨Finset.mem_range.1 h1, h2 (Finset.mem_range.1 h1)⟩
  have hX : ∀ q ∈ T, ∃ X, |X| ≤ A ∧ ∀ hq : q < cs.length, PressesAt cs[q] v v' i ν ρ X := by
    intro q hq
    obtain ⟨hq', ht⟩ := hT q hq
    obtain ⟨⟨X, h1, h2⟩, -⟩ := hf.all _ (List.getElem_mem hq') ht
    exact ⟨X, h1, fun _ => h2⟩
  choose! X hX using hX
  have hμ : ∀ q ∈ T, ∀ hq : q < cs.length, meanFriction bs cs[q] = μ := by
    intro q hq hq'
    obtain ⟨_, ht⟩ := hT q hq
    exact (hf.all _ (List.getElem_mem hq') ht).2
  have hpow : ∀ x : Vec, contactPower cs pn (fun i => a i - b i) (onlyOn (· = i) x) =
      ∑ q ∈ T, (pn q * (lift ν (twist x i) + X q * (twist x i).r) +
        (a q - b q) * (glide ν (twist x i) + ρ * (twist x i).r)) := by
    intro x
    unfold contactPower
    rw [Finset.sum_filter]
    refine Finset.sum_congr rfl fun q hq => ?_
    have hq := Finset.mem_range.1 hq
    rw [List.getElem?_eq_getElem hq]
    simp only
    split_ifs with ht
    · have hqT : q ∈ T := Finset.mem_filter.2 ⟨Finset.mem_range.2 hq, ht⟩
      have hon : twist (onlyOn (· = i) x) i = twist x i := by rw [twist_onlyOn, if_pos rfl]
      obtain ⟨e1, e2⟩ := pressesAt_vel hν ((hX q hqT).2 hq) (onlyOn (· = i) x)
        (by constructor <;> intro hne <;> rw [twist_onlyOn, if_neg hne])
      rw [e1, e2, hon]
    · have : ¬ (cs[q].i1 = i ∨ cs[q].i2 = i) := fun hn => ht fun _ => hn
      have ht : ¬ touches (· = i) cs[q] = true := by simpa [touches] using this
      simp [normalVel, slipVel, contactVel_out ht, Spec.inner]
  have hbal := fun x => (body_balance_many h hi hj x).trans (by rw [hpow x])
  set P := ∑ q ∈ T, pn q with hP
  set Q := ∑ q ∈ T, (a q - b q) with hQ
  set M := ∑ q ∈ T, pn q * X q with hM
  have hsum : ∀ y z t : ℝ, ∑ q ∈ T, (pn q * (y + X q * z) + (a q - b q) * t) = P * y + M * z + Q * t := by
    intro y z t
    rw [hP, hQ, hM, Finset.sum_mul, Finset.sum_mul, Finset.sum_mul, ← Finset.sum_add_distrib, ← Finset.sum_add_distrib]
    exact Finset.sum_congr rfl fun q _ => by ring
  have bal : ∀ x : Vec, I * u'.r * (twist x i).r + m * (u'.x * (twist x i).x + u'.y * (twist x i).y) =
      I * u.r * (twist x i).r + m * (u.x * (twist x i).x + u.y * (twist x i).y) +
      (P * lift ν (twist x i) + M * (twist x i).r + Q * (glide ν (twist x i) + ρ * (twist x i).r)) := by
    intro x
    have := hbal x
    rw [hsum] at this
    have e1 : I * u.r = I * v (3 * i) + (f i).r := by
      simp only [u, freeTwist, I, twist]; field_simp
    have e2 : m * u.x = m * v (3 * i + 1) + (f i).x := by
      simp only [u, freeTwist, m, twist]; field_simp
    have e3 : m * u.y = m * v (3 * i + 2) + (f i).y := by
      simp only [u, freeTwist, m, twist]; field_simp
    change I * u'.r * (twist x i).r + m * (u'.x * (twist x i).x + u'.y * (twist x i).y) = _ at this
    rw [this]
    have e4 : m * (u.x * (twist x i).x + u.y * (twist x i).y) =
        (m * u.x) * (twist x i).x + (m * u.y) * (twist x i).y := by ring
    rw [e4, e1, e2, e3]
    simp only [twist, I, m]
    ring
  have mk : ∀ y : V3, ∃ x : Vec, twist x i = y := fun y => ⟨fun k => if k = 3 * i then y.r else if k = 3 * i + 1 then y.x
    else y.y, by apply V3.ext <;> simp [twist]⟩
  simp only [Spec.inner] at hν
  have nonneg : ∀ q ∈ T, 0 ≤ pn q ∧ 0 ≤ a q ∧ 0 ≤ b q ∧ 0 ≤ g q := fun q hq => h.nonneg q (hT q hq).1
  have cone : ∀ q ∈ T, a q + b q ≤ μ * pn q ∧ g q * (μ * pn q - (a q + b q)) = 0 := by
    intro q hq
    have := h.cone q (hT q hq).1
    rw [hμ q hq] at this
    exact ⟨by linarith [this.1], this.2⟩
  have rel : ∀ q ∈ T, 0 ≤ lift ν u' + X q * u'.r ∧ pn q * (lift ν u' + X q * u'.r) = 0 := by
    intro q hq
    obtain ⟨hq', -⟩ := hT q hq
    obtain ⟨r1, r2, -⟩ := pressesAt_rest ((hX q hq).2 hq')
    have hr := h.restitution q hq'
    rw [(pressesAt_vel hν ((hX q hq).2 hq') v r1).1, (pressesAt_vel hν ((hX q hq).2 hq') v' r2).1, h0.1, h0.2] at hr
    simpa using hr
  have sl : ∀ q ∈ T, 0 ≤ g q + (glide ν u' + ρ * u'.r) ∧ a q * (g q + (glide ν u' + ρ * u'.r)) = 0 ∧
      0 ≤ g q - (glide ν u' + ρ * u'.r) ∧ b q * (g q - (glide ν u' + ρ * u'.r)) = 0 := by
    intro q hq
    obtain ⟨hq', -⟩ := hT q hq
    obtain ⟨r1, r2, -⟩ := pressesAt_rest ((hX q hq).2 hq')
    have hr := h.slip q hq'
    rw [(pressesAt_vel hν ((hX q hq).2 hq') v' r2).2] at hr
    exact hr
  have ends : ∀ Y : ℝ, (∃ c ∈ cs, PressesAt c v v' i ν ρ Y) → 0 ≤ lift ν u' + Y * u'.r := by
    rintro Y ⟨c, hc, hp⟩
    obtain ⟨q, hq, rfl⟩ := List.getElem_of_mem hc
    obtain ⟨r1, r2, ht⟩ := pressesAt_rest hp
    have hr := h.restitution q hq
    rw [(pressesAt_vel hν hp v r1).1, (pressesAt_vel hν hp v' r2).1, h0.1, h0.2] at hr
    simpa using hr.1
  refine ⟨P, Q, M, Finset.sum_nonneg fun q hq => (nonneg q hq).1, ?_, ?_, ?_, ?_, ?_, ?_, ?_, ?_, ?_⟩
  · rw [hQ, hP, Finset.mul_sum]
    refine (Finset.abs_sum_le_sum_abs _ _).trans (Finset.sum_le_sum fun q hq => ?_)
    obtain ⟨n1, n2, n3, n4⟩ := nonneg q hq
    have := (cone q hq).1
    rw [abs_le]; constructor <;> linarith
  · rw [hM, hP, Finset.mul_sum]
    refine (Finset.abs_sum_le_sum_abs _ _).trans (Finset.sum_le_sum fun q hq => ?_)
    rw [abs_mul, abs_of_nonneg (nonneg q hq).1, mul_comm]
    exact mul_le_mul_of_nonneg_right (hX q hq).1 (nonneg q hq).1
  · obtain ⟨x, hx⟩ := mk ⟨0, ν.1, ν.2⟩
    have := bal x
    rw [hx] at this
    simp only [lift, glide, Spec.inner, tangent] at this ⊢
    linear_combination this + P * hν
  · obtain ⟨x, hx⟩ := mk ⟨0, (tangent ν).1, (tangent ν).2⟩
    have := bal x
    rw [hx] at this
    simp only [lift, glide, Spec.inner, tangent] at this ⊢
    linear_combination this + Q * hν
  · obtain ⟨x, hx⟩ := mk ⟨1, 0, 0⟩
    have := bal x
    rw [hx] at this
    simp only [lift, glide, Spec.inner, tangent] at this ⊢
    linear_combination this
  · have e1 := ends _ hf.left
    have e2 := ends _ hf.right
    rcases abs_cases u'.r with ⟨e, -⟩ | ⟨e, -⟩ <;> rw [e] <;> linarith
  · have : ∑ q ∈ T, pn q * (lift ν u' + X q * u'.r) = 0 := Finset.sum_eq_zero fun q hq => (rel q hq).2
    have e := hsum (lift ν u') u'.r 0
    simp only [mul_zero, add_zero] at e
    rw [← e, this]
  · intro hs
    rw [hQ, hP, Finset.mul_sum, ← Finset.sum_neg_distrib]
    refine Finset.sum_congr rfl fun q hq => ?_
    obtain ⟨n1, n2, n3, n4⟩ := nonneg q hq
    obtain ⟨s1, s2, s3, s4⟩ := sl q hq
    have ha : a q = 0 := (mul_eq_zero.1 s2).resolve_right (by linarith)
    have hg : g q ≠ 0 := by intro h0; rw [h0] at s3; linarith
    have := (mul_eq_zero.1 (cone q hq).2).resolve_left hg
    linarith
  · intro hs
    rw [hQ, hP, Finset.mul_sum]
    refine Finset.sum_congr rfl fun q hq => ?_
    obtain ⟨n1, n2, n3, n4⟩ := nonneg q hq
    obtain ⟨s1, s2, s3, s4⟩ := sl q hq
    have hb : b q = 0 := (mul_eq_zero.1 s4).resolve_right (by linarith)
    have hg : g q ≠ 0 := by intro h0; rw [h0] at s1; linarith
    have := (mul_eq_zero.1 (cone q hq).2).resolve_left hg
    linarith

theorem clamp_cases {m s y : ℝ} (hm : 0 ≤ m) (h1 : |y - s| ≤ m) (h2 : 0 < y → y - s = -m) (h3 : y < 0 → y - s = m) :
    y = s - clampTo m s := by
  obtain ⟨a1, a2⟩ := abs_le.1 h1
  unfold clampTo
  rcases lt_trichotomy y 0 with h | h | h
  · have := h3 h
    rw [min_eq_right (by linarith), max_eq_left (by linarith)]; linarith
  · rw [min_eq_right (by linarith), max_eq_right (by linarith)]; linarith
  · have := h2 h
    rw [min_eq_left (by linarith), max_eq_right (by linarith)]; linarith

/-- No outcome turns a block that is broad enough for the friction, or for the sideways push. -/
theorem flat_spin {m I ρ A μ N P Q M ω y y' τ τ' : ℝ} (hm : 0 < m) (hI : 0 < I) (hρ : 0 ≤ ρ) (hA : 0 ≤ A)
    (hwide : μ * ρ ≤ A ∨ ρ * |m * τ| ≤ A * N) (hy : m * y = -N) (hP : 0 ≤ P) (hQ : |Q| ≤ μ * P) (hM : |M| ≤ A * P)
    (e1 : m * y' = m * y + P) (e2 : m * τ' = m * τ + Q) (e3 : I * ω = M + ρ * Q) (e4 : 0 ≤ y' - A * |ω|)
    (e5 : P * y' + M * ω = 0) (e6 : 0 < τ' + ρ * ω → Q = -(μ * P)) (e7 : τ' + ρ * ω < 0 → Q = μ * P) : ω = 0 := by
  by_contra hω
  have hpos : 0 < |ω| := abs_pos.2 hω
  have hMω : -(M * ω) ≤ A * P * |ω| := by
    calc -(M * ω) ≤ |M * ω| := neg_le_abs _
      _ = |M| * |ω| := abs_mul _ _
      _ ≤ A * P * |ω| := mul_le_mul_of_nonneg_right hM hpos.le
  have hPy : A * P * |ω| ≤ P * y' := by nlinarith [mul_nonneg hP e4]
  have hM2 : M * ω = -(A * P * |ω|) := by linarith
  have hsq : 0 < I * ω * ω := by
    rw [mul_assoc]; exact mul_pos hI (mul_self_pos.2 hω)
  have hdrive : A * P * |ω| < ρ * (Q * ω) := by
    rw [e3, add_mul, hM2] at hsq
    linarith
  have hPN : N ≤ P := by
    have : 0 ≤ y' := by nlinarith [mul_nonneg hA hpos.le]
    nlinarith
  rcases hwide with hw | hw
  · have : Q * ω ≤ μ * P * |ω| := by
      calc Q * ω ≤ |Q * ω| := le_abs_self _
        _ = |Q| * |ω| := abs_mul _ _
        _ ≤ _ := mul_le_mul_of_nonneg_right hQ hpos.le
    have h2 := mul_le_mul_of_nonneg_left this hρ
    have h3 := mul_le_mul_of_nonneg_right hw (mul_nonneg hP hpos.le)
    nlinarith
  · have hAN : A * N ≤ A * P := mul_le_mul_of_nonneg_left hPN hA
    have hQω : 0 < Q * ω := by
      by_contra hn
      have := mul_nonneg hρ (by linarith : 0 ≤ -(Q * ω))
      have := mul_nonneg (mul_nonneg hA hP) hpos.le
      linarith
    have hμP : 0 ≤ μ * P := (abs_nonneg _).trans hQ
    rcases lt_or_gt_of_ne hω with h | h
    · have hQ0 : Q < 0 := by
        by_contra hn
        nlinarith
      have hs : 0 ≤ τ' + ρ * ω := by
        by_contra hn
        have := e7 (by linarith)
        linarith
      rw [abs_of_neg h] at hdrive
      have h1 : A * P < ρ * -Q := by nlinarith
      have h2 : 0 ≤ τ' := by nlinarith
      have h3 : -Q ≤ |m * τ| := by
        have := le_abs_self (m * τ)
        have := mul_nonneg hm.le h2
        linarith
      have := mul_le_mul_of_nonneg_left h3 hρ
      linarith
    · have hQ0 : 0 < Q := by
        by_contra hn
        nlinarith
      have hs : τ' + ρ * ω ≤ 0 := by
        by_contra hn
        have := e6 (by linarith)
        linarith
      rw [abs_of_pos h] at hdrive
      have h1 : A * P < ρ * Q := by nlinarith
      have h2 : τ' ≤ 0 := by nlinarith
      have h3 : Q ≤ |m * τ| := by
        have := neg_le_abs (m * τ)
        have := mul_nonneg hm.le (by linarith : 0 ≤ -τ')
        linarith
      have := mul_le_mul_of_nonneg_left h3 hρ
      linarith

/-- C100: a block that glides or rests flat on a surface, is pressed against it with momentum `N` and not turned by any
other force: if it is broad enough that friction cannot tip it (`μ ρ ≤ A`), or its momentum along the surface cannot
(`ρ |T| ≤ A N`), every outcome of the contact law leaves it flat; it neither lifts off nor sinks in, and loses
`μ N / m` of its speed along the surface, or stops. -/
theorem C100_block (bs : List Body) (js : List Joint) (cs : List Contact) (f : ℕ → V3) (v v' l : Vec)
    (pn a b g : ℕ → ℝ) (h : ContactLaw bs js cs f v v' l pn a b g) (i : ℕ) (hi : i < bs.length) (ν : V2)
    (ρ A μ : ℝ) (hν : Spec.inner ν ν = 1) (hρ : 0 ≤ ρ) (hA : 0 ≤ A) (hμ : 0 ≤ μ)
    (hj : ∀ j ∈ js, j.i1 ≠ i ∧ i ∉ j.i2)
    (hf : LiesFlat bs cs v v' i ν ρ A μ) (hm : 0 < (bodyAt bs i).mass ∧ 0 < (bodyAt bs i).ang_inertia)
    (h0 : lift ν (twist v i) = 0 ∧ (twist v i).r = 0) (hr : (freeTwist bs f v i).r = 0)
    (hN : lift ν (freeTwist bs f v i) ≤ 0)
    (hwide : μ * ρ ≤ A ∨ ρ * |glide ν (freeTwist bs f v i)| ≤ A * -lift ν (freeTwist bs f v i)) :
    let u := freeTwist bs f v i
    let u' := twist v' i
    u'.r = 0 ∧ lift ν u' = 0 ∧ glide ν u' = glide ν u - clampTo (μ * -lift ν u) (glide ν u) := by
  intro u u'
  obtain ⟨P, Q, M, hP, hQ, hM, e1, e2, e3, e4, e5, e6, e7⟩ := flat_impulses h hi hν hj hf hm h0
  obtain ⟨hm, hI⟩ := hm
  rw [hr, mul_zero, zero_add] at e3
  have hω : u'.r = 0 := by
    refine flat_spin hm hI hρ hA (N := -((bodyAt bs i).mass * lift ν u)) ?_ (by ring) hP hQ hM e1 e2 e3 e4 e5 e6 e7
    refine hwide.imp id fun h => ?_
    rw [abs_mul, abs_of_pos hm]
    have := mul_le_mul_of_nonneg_left h hm.le
    linarith
  change 0 ≤ lift ν u' - A * |u'.r| at e4
  change P * lift ν u' + M * u'.r = 0 at e5
  change 0 < glide ν u' + ρ * u'.r → _ at e6
  change glide ν u' + ρ * u'.r < 0 → _ at e7
  rw [hω] at e4 e5 e6 e7
  simp only [abs_zero, mul_zero, sub_zero, add_zero] at e4 e5 e6 e7
  change _ * lift ν u' = _ * lift ν u + P at e1
  change _ * glide ν u' = _ * glide ν u + Q at e2
  have hl : lift ν u' = 0 := by
    rcases mul_eq_zero.1 e5 with h0 | h0
    · rw [h0, add_zero] at e1
      have := mul_left_cancel₀ hm.ne' e1
      exact le_antisymm (by rw [this]; exact hN) e4
    · exact h0
  have hPN : P = (bodyAt bs i).mass * -lift ν u := by rw [hl] at e1; linarith
  refine ⟨hω, hl, clamp_cases (mul_nonneg hμ (by linarith)) ?_ ?_ ?_⟩
  · have : Q = (bodyAt bs i).mass * (glide ν u' - glide ν u) := by linarith
    rw [this, abs_mul, abs_of_pos hm, hPN] at hQ
    exact le_of_mul_le_mul_left (by linarith) hm
  · intro hs
    have := e6 hs
    apply mul_left_cancel₀ hm.ne'
    rw [hPN] at this
    linarith
  · intro hs
    have := e7 hs
    apply mul_left_cancel₀ hm.ne'
    rw [hPN] at this
    linarith

/-- C100, when a block tips: it stays flat exactly if the friction that it meets, `μ N` or what stops it, does not
overcome the moment `A N` of its weight about its edge.  This holds for every outcome of the contact law. -/
theorem C100_tips_iff (bs : List Body) (js : List Joint) (cs : List Contact) (f : ℕ → V3) (v v' l : Vec)
    (pn a b g : ℕ → ℝ) (h : ContactLaw bs js cs f v v' l pn a b g) (i : ℕ) (hi : i < bs.length) (ν : V2)
    (ρ A μ : ℝ) (hν : Spec.inner ν ν = 1) (hρ : 0 ≤ ρ) (hA : 0 ≤ A) (hμ : 0 ≤ μ)
    (hj : ∀ j ∈ js, j.i1 ≠ i ∧ i ∉ j.i2)
    (hf : LiesFlat bs cs v v' i ν ρ A μ) (hm : 0 < (bodyAt bs i).mass ∧ 0 < (bodyAt bs i).ang_inertia)
    (h0 : lift ν (twist v i) = 0 ∧ (twist v i).r = 0) (hr : (freeTwist bs f v i).r = 0)
    (hN : lift ν (freeTwist bs f v i) < 0) :
    let u := freeTwist bs f v i
    (twist v' i).r = 0 ↔ ρ * min (μ * -lift ν u) |glide ν u| ≤ A * -lift ν u := by
  intro u
  constructor
  · intro hω
    obtain ⟨P, Q, M, hP, hQ, hM, e1, e2, e3, e4, e5, e6, e7⟩ := flat_impulses h hi hν hj hf hm h0
    obtain ⟨hm, hI⟩ := hm
    rw [hr, mul_zero, zero_add, hω, mul_zero] at e3
    rw [hω] at e4 e5 e6 e7
    simp only [abs_zero, mul_zero, sub_zero, add_zero] at e4 e5 e6 e7
    change _ = _ * lift ν u + P at e1
    change _ = _ * glide ν u + Q at e2
    have hN : lift ν u < 0 := hN
    have hl : lift ν (twist v' i) = 0 := by
      rcases mul_eq_zero.1 e5 with h0 | h0
      · rw [h0, add_zero] at e1
        have := mul_left_cancel₀ hm.ne' e1
        linarith
      · exact h0
    have hPN : P = (bodyAt bs i).mass * -lift ν u := by rw [hl] at e1; linarith
    have hMQ : |ρ * Q| = |M| := by rw [show ρ * Q = -M by linarith, abs_neg]
    rw [abs_mul, abs_of_nonneg hρ] at hMQ
    have habs : |μ * P| = μ * P := abs_of_nonneg (mul_nonneg hμ hP)
    have hmin : (bodyAt bs i).mass * min (μ * -lift ν u) |glide ν u| ≤ |Q| := by
      rcases lt_trichotomy (glide ν (twist v' i)) 0 with hs | hs | hs
      · rw [e7 hs, habs, hPN]
        have := mul_le_mul_of_nonneg_left (min_le_left (μ * -lift ν u) |glide ν u|) hm.le
        linarith
      · rw [hs, mul_zero] at e2
        rw [show Q = -((bodyAt bs i).mass * glide ν u) by linarith, abs_neg, abs_mul, abs_of_pos hm]
        exact mul_le_mul_of_nonneg_left (min_le_right _ _) hm.le
      · rw [e6 hs, abs_neg, habs, hPN]
        have := mul_le_mul_of_nonneg_left (min_le_left (μ * -lift ν u) |glide ν u|) hm.le
        linarith
    have h1 := mul_le_mul_of_nonneg_left hmin hρ
    rw [hPN] at hM
    refine le_of_mul_le_mul_left ?_ hm
    linarith
  · intro hle
    have hN : lift ν u < 0 := hN
    refine (C100_block bs js cs f v v' l pn a b g h i hi ν ρ A μ hν hρ hA hμ hj hf hm h0 hr hN.le ?_).1
    rcases min_choice (μ * -lift ν u) |glide ν u| with hc | hc
    · left
      rw [hc] at hle
      refine le_of_mul_le_mul_right ?_ (by linarith : 0 < -lift ν u)
      linarith
    · right
      rw [hc] at hle
      exact hle

end LcpPhysics
