import Verif.Lemmas.Sat
import Verif.Props.Support
import Mathlib.Tactic.IntervalCases

/-! # Supporting facts: rectangles centred on the origin and their clipped incident edges -/

noncomputable section

namespace LcpPhysics
open Spec

/-- A counter-clockwise rectangle centred on the origin: `p, q, -p, -q` with corners equally far. -/
def RectForm (P : List V2) : Prop :=
  ∃ p q : V2, P = [p, q, -p, -q] ∧ inner p p = inner q q ∧ 0 < det p q

/-- Middle of edge `e`. -/
def midEdge (P : List V2) (e : ℕ) : V2 := (1 / 2 : ℝ) • (P.getD e 0 + P.getD ((e + 1) % 4) 0)

/-- Half of edge `e`. -/
def halfEdge (P : List V2) (e : ℕ) : V2 := (1 / 2 : ℝ) • (P.getD ((e + 1) % 4) 0 - P.getD e 0)

theorem rect_frame {P : List V2} (h : RectForm P) {e : ℕ} (he : e < 4) :
    inner (midEdge P e) (halfEdge P e) = 0 ∧ 0 < det (midEdge P e) (halfEdge P e) ∧
    P.getD e 0 = midEdge P e - halfEdge P e ∧ P.getD ((e + 1) % 4) 0 = midEdge P e + halfEdge P e ∧
    midEdge P ((e + 1) % 4) = halfEdge P e ∧ halfEdge P ((e + 1) % 4) = -midEdge P e ∧
    edgeVec P e = (2 : ℝ) • halfEdge P e ∧
    ∀ v, v ∈ P ↔ v = midEdge P e - halfEdge P e ∨ v = midEdge P e + halfEdge P e ∨
      v = -midEdge P e + halfEdge P e ∨ v = -midEdge P e - halfEdge P e := by
  obtain ⟨p, q, rfl, hpq, hdet⟩ := h
  have key : ∀ v a b c d a' b' c' d' : V2, a = a' → b = b' → c = c' → d = d' →
      ((v = a ∨ v = b ∨ v = c ∨ v = d) ↔ (v = a' ∨ v = b' ∨ v = c' ∨ v = d')) := by
    rintro v a b c d _ _ _ _ rfl rfl rfl rfl; rfl
  simp only [inner, det] at hpq hdet
  have h2 : ∀ a b c d : Prop, (a ∨ b ∨ c ∨ d) ↔ (b ∨ c ∨ d ∨ a) := by intros; tauto
  interval_cases e
  · refine ⟨?_, ?_, ?_, ?_, ?_, ?_, ?_, fun v => ?_⟩
    all_goals simp only [midEdge, halfEdge, edgeVec, List.getD_cons_zero, List.getD_cons_succ,
      Nat.reduceAdd, Nat.reduceMod, List.length_cons, List.length_nil]
    · simp [inner]; linarith
    · simp [det]; linarith
    · module
    · module
    · module
    · module
    · module
    · simp only [List.mem_cons, List.not_mem_nil, or_false]
      exact key _ _ _ _ _ _ _ _ _ (by module) (by module) (by module) (by module)
  · refine ⟨?_, ?_, ?_, ?_, ?_, ?_, ?_, fun v => ?_⟩
    all_goals simp only [midEdge, halfEdge, edgeVec, List.getD_cons_zero, List.getD_cons_succ,
      Nat.reduceAdd, Nat.reduceMod, List.length_cons, List.length_nil]
    · simp [inner]; linarith
    · simp [det]; linarith
    · module
    · module
    · module
    · module
    · module
    · simp only [List.mem_cons, List.not_mem_nil, or_false]
      rw [h2]
      exact key _ _ _ _ _ _ _ _ _ (by module) (by module) (by module) (by module)
  · refine ⟨?_, ?_, ?_, ?_, ?_, ?_, ?_, fun v => ?_⟩
    all_goals simp only [midEdge, halfEdge, edgeVec, List.getD_cons_zero, List.getD_cons_succ,
      Nat.reduceAdd, Nat.reduceMod, List.length_cons, List.length_nil]
    · simp [inner]; linarith
    · simp [det]; linarith
    · module
    · module
    · module
    · module
    · module
    · simp only [List.mem_cons, List.not_mem_nil, or_false]
      rw [h2, h2]
      exact key _ _ _ _ _ _ _ _ _ (by module) (by module) (by module) (by module)
  · refine ⟨?_, ?_, ?_, ?_, ?_, ?_, ?_, fun v => ?_⟩
    all_goals simp only [midEdge, halfEdge, edgeVec, List.getD_cons_zero, List.getD_cons_succ,
      Nat.reduceAdd, Nat.reduceMod, List.length_cons, List.length_nil]
    · simp [inner]; linarith
    · simp [det]; linarith
    · module
    · module
    · module
    · module
    · module
    · simp only [List.mem_cons, List.not_mem_nil, or_false]
      rw [h2, h2, h2]
      exact key _ _ _ _ _ _ _ _ _ (by module) (by module) (by module) (by module)

/-- Two orthogonal vectors of positive orientation: the quarter turn of one is along the other. -/
theorem outward_of_orthogonal {A B : V2} (h0 : inner A B = 0) (hd : 0 < det A B) :
    (1 / len B) • outward B = (1 / len A) • A := by
  have hA : A ≠ 0 := by rintro rfl; simp [det] at hd
  have hB : B ≠ 0 := by rintro rfl; simp [det] at hd
  have hlA := len_pos hA
  have hlB := len_pos hB
  have hsq : det A B ^ 2 = (len A * len B) ^ 2 := by
    rw [mul_pow, len_sq, len_sq]
    have : det A B ^ 2 = inner A A * inner B B - inner A B ^ 2 := by simp only [det, inner]; ring
    rw [this, h0]; ring
  have hdet : det A B = len A * len B := by
    have := abs_eq_abs.2 (sq_eq_sq_iff_eq_or_eq_neg.1 hsq)
    rwa [abs_of_pos hd, abs_of_pos (by positivity)] at this
  have e : (len A * len A) • outward B = det A B • A := by
    rw [len_mul_self]
    ext
    · simp only [outward, det, inner, Prod.smul_fst, smul_eq_mul] at h0 ⊢
      linear_combination A.2 * h0
    · simp only [outward, det, inner, Prod.smul_snd, smul_eq_mul] at h0 ⊢
      linear_combination -A.1 * h0
  have e2 : outward B = (len B / len A) • A := by
    have : outward B = (1 / (len A * len A)) • ((len A * len A) • outward B) := by
      rw [smul_smul, one_div_mul_cancel (by positivity), one_smul]
    rw [this, e, hdet, smul_smul]; congr 1; field_simp
  rw [e2, smul_smul]; congr 1; field_simp

theorem rect_edgeNormal {P : List V2} (h : RectForm P) {e : ℕ} (he : e < 4) :
    edgeNormal P e = (1 / len (midEdge P e)) • midEdge P e := by
  obtain ⟨h0, hd, -, -, -, -, hv, -⟩ := rect_frame h he
  rw [edgeNormal, hv, len_smul, ← outward_of_orthogonal h0 hd]
  have ee : outward ((2 : ℝ) • halfEdge P e) = (2 : ℝ) • outward (halfEdge P e) := by
    ext <;> simp [outward]
  rw [ee, smul_smul]
  congr 1
  rw [abs_of_pos two_pos]
  have hB : halfEdge P e ≠ 0 := by intro hz; rw [hz] at hd; simp [det] at hd
  have := len_pos hB
  field_simp

theorem rect_length {P : List V2} (h : RectForm P) : P.length = 4 := by
  obtain ⟨p, q, rfl, -⟩ := h; rfl

theorem rect_convex {P : List V2} (h : RectForm P) : ConvexPolygon P := by
  have hl := rect_length h
  refine ⟨by omega, fun i hi hz => ?_, fun i hi w hw => ?_⟩
  · obtain ⟨_, hd, _, _, _, _, hv, _⟩ := rect_frame h (hl ▸ hi)
    rw [hz] at hv
    have : halfEdge P i = 0 := by
      have h2 := (smul_eq_zero.1 hv.symm); simpa using h2
    rw [this] at hd; simp [det] at hd
  · obtain ⟨h0, hd, hp, _, _, _, hv, hm⟩ := rect_frame h (hl ▸ hi)
    rw [hv, hp]
    have hcases := (hm w).1 hw
    set A := midEdge P i
    set B := halfEdge P i
    simp only [inner, det] at h0 hd
    rcases hcases with rfl | rfl | rfl | rfl <;> simp [inner, outward] <;> nlinarith

theorem rect_noThreeCollinear {P : List V2} (h : RectForm P) : NoThreeCollinear P := by
  obtain ⟨p, q, rfl, hpq, hdet⟩ := h
  intro i j k hi hj hk hij hjk hik
  simp only [List.length_cons, List.length_nil] at hi hj hk
  simp only [det] at hdet ⊢
  interval_cases i <;> interval_cases j <;> interval_cases k <;> first | omega | skip
  all_goals
    simp only [List.getD_cons_zero, List.getD_cons_succ, Prod.fst_sub, Prod.snd_sub, Prod.fst_neg, Prod.snd_neg]
    intro hz
    nlinarith

theorem rect_zero_mem {P : List V2} (h : RectForm P) : (0 : V2) ∈ solid P := by
  obtain ⟨p, q, rfl, -⟩ := h
  have := solid_combo2 (vs := [p, q, -p, -q]) (mem_solid (by simp : p ∈ [p, q, -p, -q]))
    (mem_solid (by simp : -p ∈ [p, q, -p, -q])) (u := 1 / 2) (v := 1 / 2) (by norm_num) (by norm_num) (by norm_num)
  have e : (1 / 2 : ℝ) • p + (1 / 2 : ℝ) • -p = 0 := by module
  rwa [e] at this

/-- The separation of a rectangle from an edge, in closed form. -/
theorem rect_edgeGap {P Q : List V2} (hQ : RectForm Q) {t : V2} {i : ℕ} {d : ℝ} (h : EdgeGap P Q t i d)
    {j : ℕ} (hj : j < 4) : d = inner (edgeNormal P i) (t - P.getD i 0) -
      |inner (edgeNormal P i) (midEdge Q j)| - |inner (edgeNormal P i) (halfEdge Q j)| := by
  obtain ⟨-, -, -, -, -, -, -, hm⟩ := rect_frame hQ hj
  set n := edgeNormal P i
  set C := midEdge Q j
  set D := halfEdge Q j
  refine edgeGap_unique h ⟨?_, ?_⟩
  · have : ∃ v ∈ Q, inner n v = -|inner n C| - |inner n D| := by
      rcases abs_cases (inner n C) with ⟨h1, _⟩ | ⟨h1, _⟩ <;>
        rcases abs_cases (inner n D) with ⟨h2, _⟩ | ⟨h2, _⟩ <;> rw [h1, h2]
      · exact ⟨-C - D, (hm _).2 (by simp), by rw [inner_sub_right, inner_neg_right]⟩
      · exact ⟨-C + D, (hm _).2 (by simp), by rw [inner_add_right, inner_neg_right]; ring⟩
      · exact ⟨C - D, (hm _).2 (by simp), by rw [inner_sub_right]; ring⟩
      · exact ⟨C + D, (hm _).2 (by simp), by rw [inner_add_right]; ring⟩
    obtain ⟨v, hv, he⟩ := this
    refine ⟨v, mem_solid hv, ?_⟩
    simp only
    have e : v + t - P.getD i 0 = v + (t - P.getD i 0) := by abel
    rw [e, inner_add_right, he]; ring
  · rintro _ ⟨y, hy, rfl⟩
    have := solid_le_inner (vs := Q) (d := n) (m := -|inner n C| - |inner n D|) (by
      intro v hv
      rw [inner_comm v n]
      have a1 := neg_abs_le (inner n C)
      have a2 := le_abs_self (inner n C)
      have b1 := neg_abs_le (inner n D)
      have b2 := le_abs_self (inner n D)
      rcases (hm v).1 hv with rfl | rfl | rfl | rfl <;>
        simp only [inner_sub_right, inner_add_right, inner_neg_right] <;> linarith) y hy
    have e : y + t - P.getD i 0 = y + (t - P.getD i 0) := by abel
    simp only
    rw [e, inner_add_right, inner_comm n y]; linarith

/-- The choice of the incident edge: its outward normal points against the reference normal, at least as much
as any edge of the rectangle. -/
theorem rect_incident {Q : List V2} (hQ : RectForm Q) {n : V2} (hn : len n = 1) {vx : ℕ} (hvx : vx < 4)
    (hmin : ∀ v ∈ Q, inner n (Q.getD vx 0) ≤ inner n v) :
    ∃ inc, get_incident_edge n Q vx = inc ∧ inc < 4 ∧
      |inner n ((1 / len (halfEdge Q inc)) • halfEdge Q inc)| ≤ -inner n (edgeNormal Q inc) := by
  have hl := rect_length hQ
  have hcon := rect_convex hQ
  obtain ⟨h0, hd, hp, hp', -, -, hv, hm⟩ := rect_frame hQ hvx
  have hpred : (vx + 4 - 1) % 4 < 4 := Nat.mod_lt _ (by norm_num)
  have hsucc : ((vx + 4 - 1) % 4 + 1) % 4 = vx := by omega
  obtain ⟨-, -, -, -, hma, hha, -, -⟩ := rect_frame hQ hpred
  rw [hsucc] at hma hha
  have hma' : midEdge Q ((vx + 4 - 1) % 4) = -halfEdge Q vx := by rw [hha, neg_neg]
  set C := midEdge Q vx with hC
  set D := halfEdge Q vx with hD
  have hD0 : 0 ≤ inner n D := by
    have := hmin _ ((hm _).2 (Or.inr (Or.inl rfl)))
    rw [hp, inner_sub_right, inner_add_right] at this; linarith
  have hC0 : inner n C ≤ 0 := by
    have := hmin _ ((hm _).2 (Or.inr (Or.inr (Or.inr rfl))))
    rw [hp, inner_sub_right, inner_sub_right, inner_neg_right] at this; linarith
  have hCne : C ≠ 0 := by intro hz; rw [hz] at hd; simp [det] at hd
  have hDne : D ≠ 0 := by intro hz; rw [hz] at hd; simp [det] at hd
  have hlC := len_pos hCne
  have hlD := len_pos hDne
  have n1 : edgeNormal Q vx = (1 / len C) • C := rect_edgeNormal hQ hvx
  have n0 : edgeNormal Q ((vx + 4 - 1) % 4) = -((1 / len D) • D) := by
    rw [rect_edgeNormal hQ hpred, hma', len_neg, smul_neg]
  have step : ∀ (st : ℝ × ℕ) (i : ℕ), i < 4 → incStep n Q st i =
      if inner n (edgeNormal Q i) < st.1 then (inner n (edgeNormal Q i), i) else st := by
    intro st i hi
    unfold incStep
    simp only
    rw [if_neg, ← edgeNormal_eq]
    · rfl
    · rw [nrm_eq_len]
      intro hz
      exact hcon.edge_ne i (hl ▸ hi) (len_eq_zero.1 hz)
  have hsmall : ∀ i < 4, inner n (edgeNormal Q i) < 10 ^ 10 := by
    intro i hi
    have := inner_le_len n (edgeNormal Q i) hn
    rw [len_edgeNormal (hcon.edge_ne i (hl ▸ hi))] at this
    linarith [(by norm_num : (1 : ℝ) < 10 ^ 10)]
  have hg : get_incident_edge n Q vx =
      if inner n (edgeNormal Q vx) < inner n (edgeNormal Q ((vx + 4 - 1) % 4)) then vx
      else (vx + 4 - 1) % 4 := by
    unfold get_incident_edge
    rw [hl]
    simp only [List.foldl_cons, List.foldl_nil]
    rw [step _ _ hpred, if_pos (hsmall _ hpred), step _ _ hvx]
    split_ifs <;> rfl
  have hDu : 0 ≤ inner n ((1 / len D) • D) := by rw [inner_smul_right]; positivity
  have hCu : inner n ((1 / len C) • C) ≤ 0 := by
    rw [inner_smul_right]
    exact mul_nonpos_of_nonneg_of_nonpos (by positivity) hC0
  refine ⟨_, rfl, ?_, ?_⟩
  · rw [hg]; split_ifs <;> assumption
  · rw [hg]
    rw [n0, n1, inner_neg_right]
    by_cases hlt : inner n ((1 / len C) • C) < -inner n ((1 / len D) • D)
    · rw [if_pos hlt, ← hD, n1, abs_of_nonneg hDu]; linarith
    · rw [if_neg hlt, n0, inner_neg_right, neg_neg]
      have : halfEdge Q ((vx + 4 - 1) % 4) = C := by rw [← hma]
      rw [this, abs_of_nonpos hCu]; linarith

/-- The scalar heart of the argument, in coordinates along the reference edge. -/
theorem rect_scalar {a b h H c μ T N d : ℝ} (ha : 0 < a) (hh : 0 < h) (hcs : c ^ 2 + μ ^ 2 = 1)
    (hc : |μ| ≤ c) (hd : d = N - H - b * c - a * |μ|) (hd0 : d ≤ 0)
    (g1 : -(-c * T + μ * N) - a - H * |μ| - h * c ≤ d) (g2 : (-c * T + μ * N) - a - H * |μ| - h * c ≤ d)
    (g3 : (μ * T + c * N) - b - H * c - h * |μ| ≤ d) :
    ∃ l : ℝ, -1 ≤ l ∧ l ≤ 1 ∧ |T - b * μ + l * (a * c)| ≤ h ∧ N - b * c - l * (a * μ) - H = d := by
  have hc0 : 0 < c := by
    rcases lt_trichotomy c 0 with h1 | h1 | h1
    · linarith [abs_nonneg μ]
    · subst h1
      have : μ = 0 := abs_eq_zero.1 (le_antisymm hc (abs_nonneg _))
      rw [this] at hcs; norm_num at hcs
    · exact h1
  have hc1 : c ≤ 1 := by nlinarith [sq_nonneg μ]
  have hN : N = d + H + b * c + a * |μ| := by linarith
  have e : c ^ 2 = 1 - μ ^ 2 := by linarith
  have sgn : ∀ x y : ℝ, 0 < x → x * y ≤ 0 → y ≤ 0 := fun x y hx hxy => by
    by_contra hy
    exact absurd hxy (not_le.2 (mul_pos hx (not_le.1 hy)))
  have hdc : d * (1 - c) ≤ 0 := mul_nonpos_of_nonpos_of_nonneg hd0 (by linarith)
  rcases lt_trichotomy μ 0 with hm | hm | hm
  · rw [abs_of_neg hm] at *
    have h1 : d * (1 + μ) ≤ 0 := mul_nonpos_of_nonpos_of_nonneg hd0 (by linarith)
    refine ⟨-1, le_rfl, by norm_num, abs_le.2 ⟨?_, ?_⟩, by linarith⟩
    · have key : -μ * (-(T - b * μ - a * c) - h) ≤ d * (1 - c) := by
        rw [hN] at g3
        linear_combination g3 - b * e
      linarith [sgn (-μ) _ (by linarith) (key.trans hdc)]
    · have key : c * (T - b * μ - a * c - h) ≤ d * (1 + μ) := by
        rw [hN] at g1
        linear_combination g1 - a * e
      linarith [sgn c _ hc0 (key.trans h1)]
  · subst hm
    have hc' : c = 1 := by
      have : c ^ 2 = 1 := by linarith
      nlinarith
    subst hc'
    simp only [abs_zero] at *
    by_cases h1 : |T| ≤ a
    · obtain ⟨h2, h3⟩ := abs_le.1 h1
      refine ⟨-T / a, ?_, ?_, ?_, by linarith⟩
      · rw [le_div_iff₀ ha]; linarith
      · rw [div_le_iff₀ ha]; linarith
      · have : T - b * 0 + -T / a * (a * 1) = 0 := by field_simp; ring
        rw [this, abs_zero]; exact hh.le
    · rcases lt_abs.1 (not_le.1 h1) with h2 | h2
      · exact ⟨-1, le_rfl, by norm_num, abs_le.2 ⟨by linarith, by linarith⟩, by linarith⟩
      · exact ⟨1, by norm_num, le_rfl, abs_le.2 ⟨by linarith, by linarith⟩, by linarith⟩
  · rw [abs_of_pos hm] at *
    have h1 : d * (1 - μ) ≤ 0 := mul_nonpos_of_nonpos_of_nonneg hd0 (by linarith)
    refine ⟨1, by norm_num, le_rfl, abs_le.2 ⟨?_, ?_⟩, by linarith⟩
    · have key : c * (-(T - b * μ + a * c) - h) ≤ d * (1 - μ) := by
        rw [hN] at g2
        linear_combination g2 - a * e
      linarith [sgn c _ hc0 (key.trans h1)]
    · have key : μ * (T - b * μ + a * c - h) ≤ d * (1 - c) := by
        rw [hN] at g3
        linear_combination g3 - b * e
      linarith [sgn μ _ hm (key.trans hdc)]

/-- Unit vectors along two orthogonal vectors of positive orientation. -/
theorem unit_frame {A B : V2} (h0 : inner A B = 0) (hd : 0 < det A B) :
    ∃ n : V2, inner n n = 1 ∧ (1 / len A) • A = n ∧ (1 / len B) • B = (-n.2, n.1) ∧ A = len A • n ∧
      B = len B • ((-n.2, n.1) : V2) ∧ 0 < len A ∧ 0 < len B := by
  have hA : A ≠ 0 := by rintro rfl; simp [det] at hd
  have hB : B ≠ 0 := by rintro rfl; simp [det] at hd
  have hlA := len_pos hA
  have hlB := len_pos hB
  have hn : inner ((1 / len A) • A) ((1 / len A) • A) = 1 := by
    rw [inner_smul_left, inner_smul_right, ← len_mul_self]; field_simp
  have ho := outward_of_orthogonal h0 hd
  have hB' : (1 / len B) • B = (-((1 / len A) • A).2, ((1 / len A) • A).1) := by
    rw [← ho]; ext <;> simp [outward]
  refine ⟨_, hn, rfl, hB', ?_, ?_, hlA, hlB⟩
  · rw [smul_smul, mul_one_div_cancel hlA.ne', one_smul]
  · rw [← hB', smul_smul, mul_one_div_cancel hlB.ne', one_smul]

theorem rect_gap_value {P Q : List V2} (hP : RectForm P) (hQ : RectForm Q) {t : V2} {i j : ℕ} (hi : i < 4)
    (hj : j < 4) {d : ℝ} (h : EdgeGap P Q t i d) : d = inner (edgeNormal P i) t - len (midEdge P i) -
      |inner (edgeNormal P i) (midEdge Q j)| - |inner (edgeNormal P i) (halfEdge Q j)| := by
  have h1 := rect_edgeGap hQ h hj
  obtain ⟨h0, hd, hp, -⟩ := rect_frame hP hi
  have h2 : inner (edgeNormal P i) (P.getD i 0) = len (midEdge P i) := by
    have hA : midEdge P i ≠ 0 := by intro hz; rw [hz] at hd; simp [det] at hd
    have hlA := len_pos hA
    rw [hp, rect_edgeNormal hP hi, inner_sub_right, inner_smul_left, inner_smul_left, h0, ← len_mul_self]
    field_simp; ring
  rw [h1, inner_sub_right, h2]

/-- If the separation `d` along edge `e` is the largest of all and not positive, the incident edge has a
point at depth `d` within the side planes of the reference edge. -/
theorem rect_overlap_point {P Q : List V2} (hP : RectForm P) (hQ : RectForm Q) {t : V2} {e inc : ℕ}
    (he : e < 4) (hinc : inc < 4) {d : ℝ} (hd : EdgeGap P Q t e d) (hd0 : d ≤ 0)
    (hall : ∀ j < 4, ∃ d', EdgeGap Q P (-t) j d' ∧ d' ≤ d)
    (hc : |inner (edgeNormal P e) ((1 / len (halfEdge Q inc)) • halfEdge Q inc)| ≤
      -inner (edgeNormal P e) (edgeNormal Q inc)) :
    ∃ z ∈ segment ℝ (Q.getD inc 0 + t) (Q.getD ((inc + 1) % 4) 0 + t),
      |inner ((1 / len (halfEdge P e)) • halfEdge P e) z| ≤ len (halfEdge P e) ∧
      inner (edgeNormal P e) (z - P.getD e 0) = d := by
  have gapv : ∀ j < 4, inner (edgeNormal Q j) (-t) - len (midEdge Q j) -
      |inner (edgeNormal Q j) (midEdge P e)| - |inner (edgeNormal Q j) (halfEdge P e)| ≤ d := by
    intro j hj
    obtain ⟨d', hg, hle⟩ := hall j hj
    have := rect_gap_value hQ hP hj he hg
    rw [this] at hle
    exact hle
  have dv := rect_gap_value hP hQ he hinc hd
  obtain ⟨p0, pd, hp, -, -, -, -, -⟩ := rect_frame hP he
  obtain ⟨q0, qd, hq, hq', qm1, qh1, -, -⟩ := rect_frame hQ hinc
  have i1 : (inc + 1) % 4 < 4 := Nat.mod_lt _ (by norm_num)
  have i2 : ((inc + 1) % 4 + 1) % 4 < 4 := Nat.mod_lt _ (by norm_num)
  have i3 : (((inc + 1) % 4 + 1) % 4 + 1) % 4 < 4 := Nat.mod_lt _ (by norm_num)
  obtain ⟨-, -, -, -, qm2, qh2, -, -⟩ := rect_frame hQ i1
  obtain ⟨-, -, -, -, qm3, qh3, -, -⟩ := rect_frame hQ i2
  have gk := gapv _ i1
  have gm := gapv _ hinc
  have gk' := gapv _ i3
  rw [rect_edgeNormal hQ i1, qm1] at gk
  rw [rect_edgeNormal hQ i3, qm3, qh2, qm1, len_neg, smul_neg] at gk'
  rw [rect_edgeNormal hQ hinc] at gm hc
  rw [rect_edgeNormal hP he] at dv hc ⊢
  rw [hp, hq, hq']
  obtain ⟨n, nn, en, eτ, eA, eB, hH, hh⟩ := unit_frame p0 pd
  obtain ⟨m, mm, em, ek, eC, eD, hb, ha⟩ := unit_frame q0 qd
  rw [em] at gm hc
  rw [ek] at gk gk' hc
  rw [en] at dv hc ⊢
  rw [eτ]
  generalize len (midEdge P e) = H at *
  generalize len (halfEdge P e) = h at *
  generalize len (midEdge Q inc) = b at *
  generalize len (halfEdge Q inc) = a at *
  rw [eA, eB] at gk gk' gm
  rw [eC, eD] at dv
  obtain ⟨n1, n2⟩ := n
  obtain ⟨m1, m2⟩ := m
  obtain ⟨t1, t2⟩ := t
  set c := -(n1 * m1 + n2 * m2) with hcdef
  set μ := -(n1 * m2) + n2 * m1 with hμ
  set T := -(n2 * t1) + n1 * t2 with hT
  set N := n1 * t1 + n2 * t2 with hN
  simp only [inner] at nn mm
  have hcs : c ^ 2 + μ ^ 2 = 1 := by
    have : c ^ 2 + μ ^ 2 = (n1 * n1 + n2 * n2) * (m1 * m1 + m2 * m2) := by rw [hcdef, hμ]; ring
    rw [this, nn, mm, one_mul]
  have hc' : |μ| ≤ c := by
    have e1 : inner (n1, n2) ((-m2, m1) : V2) = μ := by simp only [inner, hμ]; ring
    have e2 : -inner (n1, n2) ((m1, m2) : V2) = c := by simp only [inner, hcdef]
    simp only [e1, e2] at hc
    exact hc
  have hc0 : 0 ≤ c := (abs_nonneg _).trans hc'
  have dv' : d = N - H - b * c - a * |μ| := by
    have e1 : inner (n1, n2) ((t1, t2) : V2) = N := by simp only [inner, hN]
    have e2 : |inner (n1, n2) (b • ((m1, m2) : V2))| = b * c := by
      have : inner (n1, n2) (b • ((m1, m2) : V2)) = -(b * c) := by
        rw [inner_smul_right]; simp only [inner, hcdef]; ring
      rw [this, abs_neg, abs_of_nonneg (by positivity)]
    have e3 : |inner (n1, n2) (a • ((-m2, m1) : V2))| = a * |μ| := by
      have : inner (n1, n2) (a • ((-m2, m1) : V2)) = a * μ := by
        rw [inner_smul_right]; simp only [inner, hμ]; ring
      rw [this, abs_mul, abs_of_pos ha]
    simp only [e1, e2, e3] at dv
    exact dv
  have dec : (t1, t2) = ((T * -n2 + N * n1, T * n1 + N * n2) : V2) := by
    rw [hT, hN]
    ext
    · simp only; linear_combination -t1 * nn
    · simp only; linear_combination -t2 * nn
  have kt : inner ((-m2, m1) : V2) (t1, t2) = -c * T + μ * N := by
    rw [dec]; simp only [inner, hcdef, hμ]; ring
  have mt : inner ((m1, m2) : V2) (t1, t2) = -(μ * T) - c * N := by
    rw [dec]; simp only [inner, hcdef, hμ]; ring
  have kA : |inner ((-m2, m1) : V2) (H • ((n1, n2) : V2))| = H * |μ| := by
    have : inner ((-m2, m1) : V2) (H • ((n1, n2) : V2)) = H * μ := by
      rw [inner_smul_right]; simp only [inner, hμ]; ring
    rw [this, abs_mul, abs_of_pos hH]
  have kB : |inner ((-m2, m1) : V2) (h • ((-n2, n1) : V2))| = h * c := by
    have : inner ((-m2, m1) : V2) (h • ((-n2, n1) : V2)) = -(h * c) := by
      rw [inner_smul_right]; simp only [inner, hcdef]; ring
    rw [this, abs_neg, abs_of_nonneg (by positivity)]
  have mA : |inner ((m1, m2) : V2) (H • ((n1, n2) : V2))| = H * c := by
    have : inner ((m1, m2) : V2) (H • ((n1, n2) : V2)) = -(H * c) := by
      rw [inner_smul_right]; simp only [inner, hcdef]; ring
    rw [this, abs_neg, abs_of_nonneg (by positivity)]
  have mB : |inner ((m1, m2) : V2) (h • ((-n2, n1) : V2))| = h * |μ| := by
    have : inner ((m1, m2) : V2) (h • ((-n2, n1) : V2)) = -(h * μ) := by
      rw [inner_smul_right]; simp only [inner, hμ]; ring
    rw [this, abs_neg, abs_mul, abs_of_pos hh]
  simp only [inner_neg_left, inner_neg_right, neg_neg, abs_neg, kt, mt, kA, kB, mA, mB] at gk gk' gm
  obtain ⟨l, l1, l2, hl3, hl4⟩ := rect_scalar ha hh hcs hc' dv' hd0 gk gk' (by linarith)
  rw [eC, eD, eA, eB]
  refine ⟨(t1, t2) + b • ((m1, m2) : V2) - l • (a • ((-m2, m1) : V2)),
    ⟨(1 + l) / 2, (1 - l) / 2, by linarith, by linarith, by ring, by module⟩, ?_, ?_⟩
  · have : inner ((-n2, n1) : V2) ((t1, t2) + b • ((m1, m2) : V2) - l • (a • ((-m2, m1) : V2))) =
        T - b * μ + l * (a * c) := by
      simp only [inner_sub_right, inner_add_right, inner_smul_right]
      simp only [inner, hcdef, hμ, hT]; ring
    rw [this]; exact hl3
  · have : inner ((n1, n2) : V2) ((t1, t2) + b • ((m1, m2) : V2) - l • (a • ((-m2, m1) : V2)) -
        (H • ((n1, n2) : V2) - h • ((-n2, n1) : V2))) = N - b * c - l * (a * μ) - H * (n1 * n1 + n2 * n2) := by
      simp only [inner_sub_right, inner_add_right, inner_smul_right]
      simp only [inner, hcdef, hμ, hN]; ring
    rw [this, nn, mul_one]; exact hl4

end LcpPhysics
