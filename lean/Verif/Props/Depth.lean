import Verif.Spec.Depth
import Verif.Props.NoOverlap

/-!
# C102: a contact with positive penetration is a real overlap
-/

noncomputable section

namespace LcpPhysics
open Spec

/-! ## Boxes that do not meet -/

theorem beyond_scalar {N H b c a μ T h d s : ℝ} (ha : 0 < a) (hcs : c ^ 2 + μ ^ 2 = 1) (hc : |μ| ≤ c) (hd0 : 0 ≤ d)
    (dv : d = N - H - b * c - a * |μ|) (gk : -c * T + μ * N - a - H * |μ| - h * c ≤ d)
    (hend : T - b * μ - a * c ≤ -h) (hx : T - b * μ + a * c - 2 * s * (a * c) = -h) :
    0 ≤ N - b * c - a * μ + 2 * s * (a * μ) - H := by
  have hc0 : 0 < c := by
    rcases (abs_nonneg μ).trans hc |>.eq_or_lt with h0 | h0
    · rw [← h0] at hc hcs
      have : μ = 0 := abs_nonpos_iff.1 hc
      rw [this] at hcs; norm_num at hcs
    · exact h0
  have hac : 0 < a * c := mul_pos ha hc0
  have hs1 : s ≤ 1 := by
    by_contra hs
    nlinarith
  rcases le_total μ 0 with hm | hm
  · rw [abs_of_nonpos hm] at dv
    have : 0 ≤ (1 - s) * (a * -μ) := mul_nonneg (by linarith) (mul_nonneg ha.le (by linarith))
    linarith
  · rw [abs_of_nonneg hm] at dv gk hc
    by_cases hs : 0 ≤ s
    · have : 0 ≤ s * (a * μ) := mul_nonneg hs (mul_nonneg ha.le hm)
      linarith
    · push Not at hs
      have hL : 0 < -(2 * s * a) := by nlinarith
      set L := -(2 * s * a) with hLd
      have e1 : T = b * μ - a * c - L * c - h := by rw [hLd]; linarith
      have e2 : N = d + H + b * c + a * μ := by linarith
      have e3 : -c * T + μ * N - a - H * μ - h * c = μ * d + L * c ^ 2 + a * (c ^ 2 + μ ^ 2) - a := by
        rw [e1, e2]; ring
      rw [e3, hcs] at gk
      have e4 : c ^ 2 = (1 - μ) * (1 + μ) := by linarith
      have hm1 : μ < 1 := by nlinarith
      have e5 : L * (1 + μ) ≤ d := by
        rw [e4] at gk
        by_contra hno
        push Not at hno
        nlinarith
      have : N - b * c - a * μ + 2 * s * (a * μ) - H = d - L * μ := by rw [e2, hLd]; ring
      rw [this]
      nlinarith

theorem rect_beyond {P Q : List V2} (hP : RectForm P) (hQ : RectForm Q) {t : V2} {e inc : ℕ}
    (he : e < 4) (hinc : inc < 4) {d : ℝ} (hd : EdgeGap P Q t e d) (hd0 : 0 ≤ d)
    (hall : ∀ j < 4, ∃ d', EdgeGap Q P (-t) j d' ∧ d' ≤ d)
    (hc : |inner (edgeNormal P e) ((1 / len (halfEdge Q inc)) • halfEdge Q inc)| ≤
      -inner (edgeNormal P e) (edgeNormal Q inc)) {s : ℝ} {x : V2}
    (hx : x = Q.getD inc 0 + t + s • (Q.getD ((inc + 1) % 4) 0 - Q.getD inc 0))
    (hend : inner ((1 / len (halfEdge P e)) • halfEdge P e) (Q.getD ((inc + 1) % 4) 0 + t) ≤ -len (halfEdge P e))
    (hxl : inner ((1 / len (halfEdge P e)) • halfEdge P e) x = -len (halfEdge P e)) :
    0 ≤ inner (edgeNormal P e) (x - P.getD e 0) := by
  have gapv : ∀ j < 4, inner (edgeNormal Q j) (-t) - len (midEdge Q j) -
      |inner (edgeNormal Q j) (midEdge P e)| - |inner (edgeNormal Q j) (halfEdge P e)| ≤ d := by
    intro j hj
    obtain ⟨d', hg, hle⟩ := hall j hj
    have := rect_gap_value hQ hP hj he hg
    rw [this] at hle
    exact hle
  have dv := rect_gap_value hP hQ he hinc hd
  obtain ⟨p0, pd, hp, -, -, -, -, -⟩ := rect_frame hP he
  obtain ⟨q0, qd, hq, hq', qm1, qh1, -, -⟩ := rect_frame hQ hinc
  have i1 : (inc + 1) % 4 < 4 := Nat.mod_lt _ (by norm_num)
  have i2 : ((inc + 1) % 4 + 1) % 4 < 4 := Nat.mod_lt _ (by norm_num)
  have i3 : (((inc + 1) % 4 + 1) % 4 + 1) % 4 < 4 := Nat.mod_lt _ (by norm_num)
  obtain ⟨-, -, -, -, qm2, qh2, -, -⟩ := rect_frame hQ i1
  obtain ⟨-, -, -, -, qm3, qh3, -, -⟩ := rect_frame hQ i2
  have gk := gapv _ i1
  have gm := gapv _ hinc
  have gk' := gapv _ i3
  rw [rect_edgeNormal hQ i1, qm1] at gk
  rw [rect_edgeNormal hQ i3, qm3, qh2, qm1, len_neg, smul_neg] at gk'
  rw [rect_edgeNormal hQ hinc] at gm hc
  rw [rect_edgeNormal hP he] at dv hc ⊢
  rw [hp]
  rw [hq, hq'] at hx
  rw [hq'] at hend
  obtain ⟨n, nn, en, eτ, eA, eB, hH, hh⟩ := unit_frame p0 pd
  obtain ⟨m, mm, em, ek, eC, eD, hb, ha⟩ := unit_frame q0 qd
  rw [em] at gm hc
  rw [ek] at gk gk' hc
  rw [en] at dv hc ⊢
  rw [eτ] at hxl hend
  generalize len (midEdge P e) = H at *
  generalize len (halfEdge P e) = h at *
  generalize len (midEdge Q inc) = b at *
  generalize len (halfEdge Q inc) = a at *
  rw [eA, eB] at gk gk' gm
  rw [eC, eD] at dv hx hend
  rw [eA, eB]
  obtain ⟨n1, n2⟩ := n
  obtain ⟨m1, m2⟩ := m
  obtain ⟨t1, t2⟩ := t
  set c := -(n1 * m1 + n2 * m2) with hcdef
  set μ := -(n1 * m2) + n2 * m1 with hμ
  set T := -(n2 * t1) + n1 * t2 with hT
  set N := n1 * t1 + n2 * t2 with hN
  simp only [inner] at nn mm
  have hcs : c ^ 2 + μ ^ 2 = 1 := by
    have : c ^ 2 + μ ^ 2 = (n1 * n1 + n2 * n2) * (m1 * m1 + m2 * m2) := by rw [hcdef, hμ]; ring
    rw [this, nn, mm, one_mul]
  have hc' : |μ| ≤ c := by
    have e1 : inner (n1, n2) ((-m2, m1) : V2) = μ := by simp only [inner, hμ]; ring
    have e2 : -inner (n1, n2) ((m1, m2) : V2) = c := by simp only [inner, hcdef]
    simp only [e1, e2] at hc
    exact hc
  have hc0 : 0 ≤ c := (abs_nonneg _).trans hc'
  have dv' : d = N - H - b * c - a * |μ| := by
    have e1 : inner (n1, n2) ((t1, t2) : V2) = N := by simp only [inner, hN]
    have e2 : |inner (n1, n2) (b • ((m1, m2) : V2))| = b * c := by
      have : inner (n1, n2) (b • ((m1, m2) : V2)) = -(b * c) := by
        rw [inner_smul_right]; simp only [inner, hcdef]; ring
      rw [this, abs_neg, abs_of_nonneg (by positivity)]
    have e3 : |inner (n1, n2) (a • ((-m2, m1) : V2))| = a * |μ| := by
      have : inner (n1, n2) (a • ((-m2, m1) : V2)) = a * μ := by
        rw [inner_smul_right]; simp only [inner, hμ]; ring
      rw [this, abs_mul, abs_of_pos ha]
    simp only [e1, e2, e3] at dv
    exact dv
  have dec : (t1, t2) = ((T * -n2 + N * n1, T * n1 + N * n2) : V2) := by
    rw [hT, hN]
    ext
    · simp only; linear_combination -t1 * nn
    · simp only; linear_combination -t2 * nn
  have kt : inner ((-m2, m1) : V2) (t1, t2) = -c * T + μ * N := by
    rw [dec]; simp only [inner, hcdef, hμ]; ring
  have mt : inner ((m1, m2) : V2) (t1, t2) = -(μ * T) - c * N := by
    rw [dec]; simp only [inner, hcdef, hμ]; ring
  have kA : |inner ((-m2, m1) : V2) (H • ((n1, n2) : V2))| = H * |μ| := by
    have : inner ((-m2, m1) : V2) (H • ((n1, n2) : V2)) = H * μ := by
      rw [inner_smul_right]; simp only [inner, hμ]; ring
    rw [this, abs_mul, abs_of_pos hH]
  have kB : |inner ((-m2, m1) : V2) (h • ((-n2, n1) : V2))| = h * c := by
    have : inner ((-m2, m1) : V2) (h • ((-n2, n1) : V2)) = -(h * c) := by
      rw [inner_smul_right]; simp only [inner, hcdef]; ring
    rw [this, abs_neg, abs_of_nonneg (by positivity)]
  have mA : |inner ((m1, m2) : V2) (H • ((n1, n2) : V2))| = H * c := by
    have : inner ((m1, m2) : V2) (H • ((n1, n2) : V2)) = -(H * c) := by
      rw [inner_smul_right]; simp only [inner, hcdef]; ring
    rw [this, abs_neg, abs_of_nonneg (by positivity)]
  have mB : |inner ((m1, m2) : V2) (h • ((-n2, n1) : V2))| = h * |μ| := by
    have : inner ((m1, m2) : V2) (h • ((-n2, n1) : V2)) = -(h * μ) := by
      rw [inner_smul_right]; simp only [inner, hμ]; ring
    rw [this, abs_neg, abs_mul, abs_of_pos hh]
  simp only [inner_neg_left, inner_neg_right, neg_neg, abs_neg, kt, mt, kA, kB, mA, mB] at gk gk' gm
  have hend' : T - b * μ - a * c ≤ -h := by
    have : inner ((-n2, n1) : V2) (b • ((m1, m2) : V2) + a • ((-m2, m1) : V2) + (t1, t2)) = T - b * μ - a * c := by
      simp only [inner_add_right, inner_smul_right]
      simp only [inner, hcdef, hμ, hT]; ring
    rw [← this]; exact hend
  have hx' : T - b * μ + a * c - 2 * s * (a * c) = -h := by
    rw [← hxl, hx]
    simp only [inner_sub_right, inner_add_right, inner_smul_right]
    simp only [inner, hcdef, hμ, hT]; ring
  have := beyond_scalar ha hcs hc' hd0 dv' (by linarith) hend' hx'
  have e : inner ((n1, n2) : V2) (x - (H • ((n1, n2) : V2) - h • ((-n2, n1) : V2))) =
      N - b * c - a * μ + 2 * s * (a * μ) - H * (n1 * n1 + n2 * n2) := by
    rw [hx]
    simp only [inner_sub_right, inner_add_right, inner_smul_right]
    simp only [inner, hcdef, hμ, hN]; ring
  rw [e, nn, mul_one]; exact this

/-- The points of the manifold of two boxes that do not meet: none has positive penetration, also not a point got by
clipping an edge that lies beside the reference edge. -/
theorem rect_manifold_apart {P Q : List V2} (hP : RectForm P) (hQ : RectForm Q) {eps : ℝ}
    {rp ip : V2} {e vx : ℕ} (he : e < 4) (hvx : vx < 4) {d : ℝ} (hd : EdgeGap P Q (ip - rp) e d) (hd0 : 0 ≤ d)
    (hall : ∀ j < 4, ∃ d', EdgeGap Q P (rp - ip) j d' ∧ d' ≤ d)
    (hv : inner (edgeNormal P e) (Q.getD vx 0 + (ip - rp) - P.getD e 0) = d) {first : Bool} {pts : List Pt}
    (hm : manifold eps rp ip P Q (-edgeNormal P e) vx (len (edgeVec P e)) e first = .ok pts) :
    ∀ p ∈ pts, p.pen ≤ 0 := by
  have hcon := rect_convex hP
  have hl := rect_length hP
  have hlQ := rect_length hQ
  have hn1 : len (edgeNormal P e) = 1 := len_edgeNormal (hcon.edge_ne e (hl ▸ he))
  have least : ∀ y ∈ solid Q, d ≤ inner (edgeNormal P e) (y + (ip - rp) - P.getD e 0) :=
    fun y hy => hd.2 ⟨y, hy, rfl⟩
  have hmin : ∀ v ∈ Q, inner (edgeNormal P e) (Q.getD vx 0) ≤ inner (edgeNormal P e) v := by
    intro v hvQ
    have h1 := least v (mem_solid hvQ)
    rw [← hv] at h1
    simp only [inner_sub_right, inner_add_right] at h1
    linarith
  obtain ⟨inc, hinc, hinc4, hc⟩ := rect_incident hQ hn1 hvx hmin
  have hall' : ∀ j < 4, ∃ d', EdgeGap Q P (-(ip - rp)) j d' ∧ d' ≤ d := by
    rw [neg_sub]; exact hall
  obtain ⟨p0, pd, -, -, -, -, hev, -⟩ := rect_frame hP he
  obtain ⟨nn, -, en, eτ, -, -, -, hh⟩ := unit_frame p0 pd
  have hnn : edgeNormal P e = nn := by rw [rect_edgeNormal hP he, en]
  have hhalf : len (edgeVec P e) / 2 = len (halfEdge P e) := by
    rw [hev, len_smul, abs_of_pos two_pos]; ring
  have ea : vget Q inc + ip - rp = Q.getD inc 0 + (ip - rp) := by rw [add_sub_assoc]; rfl
  have eb : vget Q ((inc + 1) % Q.length) + ip - rp = Q.getD ((inc + 1) % 4) 0 + (ip - rp) := by
    rw [add_sub_assoc, hlQ]; rfl
  set v0 := Q.getD inc 0 + (ip - rp) with hv0
  set v1 := Q.getD ((inc + 1) % 4) 0 + (ip - rp) with hv1
  set h := len (halfEdge P e) with hhdef
  have hin : ∀ x ∈ segment ℝ v0 v1, d ≤ inner (edgeNormal P e) (x - P.getD e 0) := by
    rintro x ⟨u, v, hu, hv', huv, rfl⟩
    have hq1 : Q.getD inc 0 ∈ Q := vget_mem (hlQ ▸ hinc4)
    have hq2 : Q.getD ((inc + 1) % 4) 0 ∈ Q := vget_mem (by rw [hlQ]; exact Nat.mod_lt _ (by norm_num))
    have hy := solid_combo2 (mem_solid hq1) (mem_solid hq2) hu hv' huv
    have := least _ hy
    have ex : u • v0 + v • v1 =
        u • Q.getD inc 0 + v • Q.getD ((inc + 1) % 4) 0 + (u + v) • (ip - rp) := by rw [hv0, hv1]; module
    rw [ex, huv, one_smul]
    exact this
  unfold manifold at hm
  simp only [neg_neg, hinc, ea, eb, hhalf] at hm
  -- distances to the second plane
  have lin : ∀ x, lineDist (-left_orthogonal (edgeNormal P e)) h x = inner ((1 / h) • halfEdge P e) x + h := by
    intro x
    rw [eτ, hnn]
    simp only [lineDist, left_orthogonal, inner, Prod.fst_neg, Prod.snd_neg]; ring
  have key : ∀ v : V2, (v ∈ segment ℝ v0 v1 ∨ (lineDist (-left_orthogonal (edgeNormal P e)) h v = 0 ∧
      (∃ s : ℝ, v = v0 + s • (v1 - v0)) ∧ lineDist (-left_orthogonal (edgeNormal P e)) h v1 ≤ 0)) →
      0 ≤ inner (edgeNormal P e) (v - P.getD e 0) := by
    rintro v (hs | ⟨h1, ⟨s, hs⟩, h2⟩)
    · exact hd0.trans (hin v hs)
    · rw [lin] at h1 h2
      refine rect_beyond hP hQ he hinc4 hd hd0 hall' hc (s := s) (x := v) ?_ (by linarith) (by linarith)
      rw [hs, hv0, hv1]; congr 2; abel
  by_cases hins : 0 ≤ lineDist (left_orthogonal (edgeNormal P e)) h v0 ∨ 0 ≤ lineDist (left_orthogonal (edgeNormal P e)) h v1
  · obtain ⟨a, b, e1, q1, -, -⟩ := C18_clip_inside v0 v1 (left_orthogonal (edgeNormal P e)) h hins
    rw [e1] at hm
    simp only at hm
    have sa := (q1 a (by simp)).1
    have sb := (q1 b (by simp)).1
    intro p hp
    obtain ⟨v, hvm, -, rfl⟩ := emitPts_origin hm p hp
    have hpen : (emitOne (edgeNormal P e) (vget P e) rp ip first v).pen = -inner (edgeNormal P e) (v - P.getD e 0) := by
      cases first <;> rfl
    rw [hpen, neg_nonpos]
    refine key v ?_
    by_cases hins2 : 0 ≤ lineDist (-left_orthogonal (edgeNormal P e)) h a ∨
        0 ≤ lineDist (-left_orthogonal (edgeNormal P e)) h b
    · obtain ⟨a2, b2, e2, q2, -, -⟩ := C18_clip_inside a b _ h hins2
      rw [e2] at hvm
      have hv2 : v ∈ [a2, b2] := by simpa using hvm
      exact .inl ((convex_segment (𝕜 := ℝ) v0 v1).segment_subset sa sb (q2 v hv2).1)
    · push Not at hins2
      obtain ⟨ha2, hb2⟩ := hins2
      obtain ⟨o1, o2⟩ := C18_clip_outside a b _ h ha2 hb2
      by_cases heq : lineDist (-left_orthogonal (edgeNormal P e)) h a = lineDist (-left_orthogonal (edgeNormal P e)) h b
      · rw [o1 heq] at hvm; simp at hvm
      · obtain ⟨x, ex, hx0, -, t, hxt⟩ := o2 heq
        rw [ex] at hvm
        have hvx' : v = x := by simpa using hvm
        subst hvx'
        obtain ⟨u1, w1, hu1, hw1, huw1, ra⟩ := sa
        obtain ⟨u2, w2, hu2, hw2, huw2, rb⟩ := sb
        have ea' : a = v0 + w1 • (v1 - v0) := by
          rw [← ra, show u1 = 1 - w1 by linarith]; module
        have eb' : b = v0 + w2 • (v1 - v0) := by
          rw [← rb, show u2 = 1 - w2 by linarith]; module
        refine .inr ⟨hx0, ⟨w1 + t * (w2 - w1), by rw [hxt, ea', eb']; module⟩, ?_⟩
        by_contra hpos
        push Not at hpos
        -- the far end of the edge has the smallest distance
        have far : inner ((1 / h) • halfEdge P e) (v1 - v0) ≤ 0 := by
          obtain ⟨q0, qd, hq, hq', -, -, -, -⟩ := rect_frame hQ hinc4
          obtain ⟨m, -, em, ek, -, eD, -, hD⟩ := unit_frame q0 qd
          have hc1 : 0 ≤ -inner (edgeNormal P e) (edgeNormal Q inc) := (abs_nonneg _).trans hc
          rw [rect_edgeNormal hQ hinc4, em, hnn] at hc1
          have ev : v1 - v0 = (2 * len (halfEdge Q inc)) • ((-m.2, m.1) : V2) := by
            rw [hv0, hv1, hq, hq', mul_smul, ← eD]; module
          rw [ev, eτ, inner_smul_right]
          have : inner ((-nn.2, nn.1) : V2) ((-m.2, m.1) : V2) = inner nn m := by simp only [inner]; ring
          rw [this]
          exact mul_nonpos_of_nonneg_of_nonpos (by linarith) (by linarith)
        rw [lin] at ha2 hpos
        rw [ea'] at ha2
        rw [show v1 = v0 + (v1 - v0) by abel] at hpos
        simp only [inner_add_right, inner_smul_right] at ha2 hpos
        nlinarith
  · push Not at hins
    obtain ⟨o1, o2⟩ := C18_clip_outside v0 v1 (left_orthogonal (edgeNormal P e)) h hins.1 hins.2
    by_cases heq : lineDist (left_orthogonal (edgeNormal P e)) h v0 = lineDist (left_orthogonal (edgeNormal P e)) h v1
    · rw [o1 heq] at hm
      simp only at hm
      injection hm with hm; rw [← hm]; simp
    · obtain ⟨x, ex, -⟩ := o2 heq
      rw [ex] at hm
      simp only at hm
      injection hm with hm; rw [← hm]; simp

/-- Two boxes: a point with positive penetration. -/
theorem boxes_depth {P Q : List V2} (hP : RectForm P) (hQ : RectForm Q) {eps : ℝ} {pos1 pos2 : V2} {i1 i2 : ℕ}
    {f f' : Finder} {pts : List Pt} (heps : 0 ≤ eps) (h : hullHull eps pos1 pos2 P Q i1 i2 f = .ok (f', pts)) {p : Pt}
    (hp : p ∈ pts) (h0 : 0 < p.pen) :
    ∀ u, len u ≤ p.pen → ∃ x ∈ solid P, ∃ y ∈ solid Q, x + pos1 + u = y + pos2 := by
  have lP := rect_length hP
  have lQ := rect_length hQ
  have hh := h
  unfold hullHull at hh
  cases h1 : test_separations eps pos1 pos2 P Q (f.sat i1) with
  | error e => rw [h1] at hh; cases hh
  | ok c1 =>
  rw [h1] at hh
  simp only at hh
  by_cases g1 : c1.dist > eps
  · rw [if_pos g1] at hh
    injection hh with hh
    rw [← (Prod.mk.inj hh).2] at hp; simp at hp
  rw [if_neg g1] at hh
  cases h2 : test_separations eps pos2 pos1 Q P ((f.setSat i1 c1.edge).sat i2) with
  | error e => rw [h2] at hh; cases hh
  | ok c2 =>
  rw [h2] at hh
  simp only at hh
  by_cases g2 : c2.dist > eps
  · rw [if_pos g2] at hh
    injection hh with hh
    rw [← (Prod.mk.inj hh).2] at hp; simp at hp
  rw [if_neg g2] at hh
  by_cases hov : ∃ x ∈ solid P, ∃ y ∈ solid Q, x + pos1 = y + pos2
  · obtain ⟨f2, pts2, he, q, hq, hq0, hall, hdep, -⟩ := rect_hullHull hP hQ heps i1 i2 f h1 h2 hov
    rw [h] at he
    injection he with he
    have := (Prod.mk.inj he).2
    subst this
    exact fun u hu => hdep u (hu.trans (hall p hp).1)
  · exfalso
    rcases test_sep_spec h1 with ⟨d, i, rfl, -, -, hlt, -⟩ | ⟨d1, a1, b1, n1, v1, l1, e1, rfl, he1, hg1, -, hall1⟩
    · exact g1 hlt
    rcases test_sep_spec h2 with ⟨d, i, rfl, -, -, hlt, -⟩ | ⟨d2, a2, b2, n2, v2, l2, e2, rfl, he2, hg2, -, hall2⟩
    · exact g2 hlt
    obtain ⟨dep, -, -⟩ := C64_penetration_depth eps P Q (rect_convex hP) (rect_noThreeCollinear hP) (rect_convex hQ)
      (rect_noThreeCollinear hQ) pos1 pos2 _ _ d1 d2 a1 b1 n1 a2 b2 n2 v1 e1 v2 e2 l1 l2 h1 h2 _ rfl
    have hD : 0 < max d1 d2 := by
      by_contra hno
      obtain ⟨x, hx, y, hy, e⟩ := dep 0 (by rw [len_eq_zero.2 rfl]; linarith)
      exact hov ⟨x, hx, y, hy, by rw [e, add_zero]⟩
    by_cases g3 : d2 > d1
    · rw [max_eq_right g3.le] at hD
      rw [if_pos (by exact g3 : (Sep.best d2 a2 b2 n2 v2 l2 e2).dist > (Sep.best d1 a1 b1 n1 v1 l1 e1).dist)] at hh
      rw [hg2.nn_eq, hg2.en_eq] at hh
      simp only at hh
      cases hm : manifold eps pos2 pos1 Q P (-edgeNormal Q e2) v2 (len (edgeVec Q e2)) e2 false with
      | error e => rw [hm] at hh; cases hh
      | ok pts' =>
        rw [hm] at hh
        simp only at hh
        injection hh with hh
        have := (Prod.mk.inj hh).2
        subst this
        have := rect_manifold_apart hQ hP (lQ ▸ he2) (lP ▸ hg2.vx_lt) hg2.edge hD.le (fun j hj => by
          obtain ⟨d', a, b⟩ := hall1 j (lP.symm ▸ hj); exact ⟨d', a, b.trans g3.le⟩) hg2.vx_gap hm p hp
        linarith
    · have hle := not_lt.1 g3
      rw [max_eq_left hle] at hD
      rw [if_neg (by exact g3 : ¬ (Sep.best d2 a2 b2 n2 v2 l2 e2).dist > (Sep.best d1 a1 b1 n1 v1 l1 e1).dist)] at hh
      rw [hg1.nn_eq, hg1.en_eq] at hh
      simp only at hh
      cases hm : manifold eps pos1 pos2 P Q (-edgeNormal P e1) v1 (len (edgeVec P e1)) e1 true with
      | error e => rw [hm] at hh; cases hh
      | ok pts' =>
        rw [hm] at hh
        simp only at hh
        injection hh with hh
        have := (Prod.mk.inj hh).2
        subst this
        have := rect_manifold_apart hP hQ (lP ▸ he1) (lQ ▸ hg1.vx_lt) hg1.edge hD.le (fun j hj => by
          obtain ⟨d', a, b⟩ := hall2 j (lQ.symm ▸ hj); exact ⟨d', a, b.trans hle⟩) hg1.vx_gap hm p hp
        linarith

/-! ## Discs -/

/-- Circle and convex hull. -/
theorem circleHull_depth {fuel : ℕ} {eps rad : ℝ} (heps : 0 ≤ eps) (hr : 0 < rad) {c p : V2} {verts : List V2}
    {seed last last' : ℕ} (hP : ConvexPolygon verts) (hc : NoThreeCollinear verts) {k : CHull}
    (h : circleHull fuel eps rad c p verts seed last = .done (some k, last')) :
    ∀ u, len u < -k.dist → ∃ x ∈ solid verts, Spec.dist (c + u) (x + p) < rad := by
  cases hn : k.nan with
  | false => exact (C65_penetration_depth fuel eps rad hr c p verts seed last last' hP hc k h hn).2.2
  | true =>
    have hne : verts ≠ [] := by
      intro h0; have := hP.three; rw [h0] at this; simp at this
    have hin : c - p ∈ solid verts := by
      by_contra hout
      obtain ⟨q, -, -, -, -, h2⟩ := C16_circle_hull_exact fuel eps rad c p verts seed last last' hne hout _ h
      have := (h2 k rfl).2.2.2.2.2
      rw [hn] at this; cases this
    obtain ⟨k', hk, -, hk'⟩ := circleHull_touching heps hr hP hc h hin (by rw [Spec.dist_self]; exact hr.le)
    injection hk with hk
    subst hk
    intro u hu
    rw [hk' hn, neg_neg] at hu
    refine ⟨c - p, hin, ?_⟩
    unfold Spec.dist
    rw [sub_add_cancel, add_sub_cancel_left]; exact hu

theorem overlapAtLeast_comm {t : ℝ} {A B : Set V2} (h : OverlapAtLeast t A B) : OverlapAtLeast t B A := by
  intro u hu
  obtain ⟨x, hx, hy⟩ := h (-u) (by rwa [len_neg])
  exact ⟨x + -u, hy, by rwa [neg_add_cancel_right]⟩

theorem overlapAtLeast_mono {s t : ℝ} {A B : Set V2} (hst : s ≤ t) (h : OverlapAtLeast t A B) : OverlapAtLeast s A B :=
  fun u hu => h u (hu.trans_le hst)

theorem disc_hull_depth {fuel : ℕ} {eps : ℝ} (heps : 0 ≤ eps) {b1 b2 : Body} {seed last last' : ℕ}
    (h1 : DiscBody 0 b1) (h2 : Alive b2 ∧ b2.isCircle = false ∧ ConvexPolygon b2.verts ∧ NoThreeCollinear b2.verts)
    {k : CHull} (h : circleHull fuel eps b1.rad b1.pos b2.pos b2.verts seed last = .done (some k, last')) :
    OverlapAtLeast (-k.dist) (bodyRegion b1) (bodyRegion b2) := by
  obtain ⟨-, hc1, hr1⟩ := discBody_facts h1
  obtain ⟨ha2, hc2, hP, hN⟩ := h2
  intro u hu
  obtain ⟨x, hx, hd⟩ := circleHull_depth heps hr1 hP hN h u hu
  refine ⟨x + b2.pos - u, ?_, ?_⟩
  · rw [circle_region hc1]
    unfold Spec.dist at hd ⊢
    rw [← len_neg, show -(x + b2.pos - u - b1.pos) = b1.pos + u - (x + b2.pos) by abel]
    exact hd.le
  · rw [(alive_verts ha2 hc2).2, sub_add_cancel, add_sub_cancel_right]; exact hx

theorem discs_depth {eps : ℝ} {b1 b2 : Body} (h1 : DiscBody 0 b1) (h2 : DiscBody 0 b2) {q : Pt}
    (hq : q ∈ circleCircle eps b1.rad b2.rad b1.pos b2.pos) :
    OverlapAtLeast q.pen (bodyRegion b1) (bodyRegion b2) := by
  obtain ⟨-, hc1, hr1⟩ := discBody_facts h1
  obtain ⟨-, hc2, hr2⟩ := discBody_facts h2
  have hpen : q.pen = b1.rad + b2.rad - len (b1.pos - b2.pos) := by
    unfold circleCircle at hq
    simp only [nrm_eq_len] at hq
    split_ifs at hq
    · simp at hq
    · rw [List.mem_singleton.1 hq]
  intro u hu
  rw [hpen] at hu
  have hs : 0 < b1.rad + b2.rad := by linarith
  set d := b2.pos - b1.pos - u with hd
  have hdl : len d ≤ b1.rad + b2.rad := by
    have := len_add_le (b2.pos - b1.pos) (-u)
    rw [len_neg, ← sub_eq_add_neg] at this
    have e : len (b2.pos - b1.pos) = len (b1.pos - b2.pos) := by rw [← len_neg, neg_sub]
    rw [e] at this
    linarith
  refine ⟨b1.pos + (b1.rad / (b1.rad + b2.rad)) • d, ?_, ?_⟩
  · rw [circle_region hc1]
    unfold Spec.dist
    rw [add_sub_cancel_left, len_smul, abs_of_pos (by positivity), div_mul_eq_mul_div, div_le_iff₀ hs]
    exact mul_le_mul_of_nonneg_left hdl hr1.le
  · rw [circle_region hc2]
    unfold Spec.dist
    have e : b1.pos + (b1.rad / (b1.rad + b2.rad)) • d + u - b2.pos = -((b2.rad / (b1.rad + b2.rad)) • d) := by
      have e1 : b2.rad / (b1.rad + b2.rad) = 1 - b1.rad / (b1.rad + b2.rad) := by field_simp; ring
      rw [e1, hd]; module
    rw [e, len_neg, len_smul, abs_of_pos (by positivity), div_mul_eq_mul_div, div_le_iff₀ hs]
    exact mul_le_mul_of_nonneg_left hdl hr2.le

/-! ## The contact search -/

/-- One pair. -/
theorem pair_depth {fuel : ℕ} {eps : ℝ} (heps : 0 ≤ eps) {bs : List Body} {f f' : Finder}
    {i1 i2 : ℕ} {cs : List Contact} (h : handlePair fuel eps bs f i1 i2 = .done (f', cs))
    (hm : Measured 0 (bodyAt bs i1) (bodyAt bs i2)) {c : Contact} (hc : c ∈ cs) (h0 : 0 < c.pen) :
    c.i1 = i1 ∧ c.i2 = i2 ∧ OverlapAtLeast c.pen (bodyRegion (bodyAt bs i1)) (bodyRegion (bodyAt bs i2)) := by
  unfold handlePair at h
  generalize bodyAt bs i1 = b1 at *
  generalize bodyAt bs i2 = b2 at *
  simp only at h
  have flat : ∀ {b : Body}, ConvexBody b ∨ BoxBody b →
      Alive b ∧ b.isCircle = false ∧ ConvexPolygon b.verts ∧ NoThreeCollinear b.verts := by
    rintro b (hb | hb)
    · exact convexBody_facts hb
    · exact boxBody_facts hb
  have cc : DiscBody 0 b1 → DiscBody 0 b2 →
      c.i1 = i1 ∧ c.i2 = i2 ∧ OverlapAtLeast c.pen (bodyRegion b1) (bodyRegion b2) := by
    intro d1 d2
    rw [if_pos ⟨(discBody_facts d1).2.1, (discBody_facts d2).2.1⟩] at h
    injection h with h
    have h := (Prod.mk.inj h).2
    subst h
    obtain ⟨q, hq, rfl⟩ := List.mem_map.1 hc
    exact ⟨rfl, rfl, discs_depth d1 d2 hq⟩
  have ch : DiscBody 0 b1 → (ConvexBody b2 ∨ BoxBody b2) →
      c.i1 = i1 ∧ c.i2 = i2 ∧ OverlapAtLeast c.pen (bodyRegion b1) (bodyRegion b2) := by
    intro d1 d2
    have c1 := (discBody_facts d1).2.1
    have k2 := flat d2
    simp only [c1, k2.2.1, Bool.false_eq_true, and_false, if_false, or_false, if_true] at h
    rw [Run.bind_eq_done] at h
    obtain ⟨⟨r, l⟩, hr, h⟩ := h
    injection h with h
    have h := (Prod.mk.inj h).2
    subst h
    obtain ⟨q, hq, rfl⟩ := List.mem_map.1 hc
    obtain ⟨k, hk, rfl⟩ := List.mem_map.1 hq
    have hk : r = some k := by simpa using hk
    subst hk
    exact ⟨rfl, rfl, disc_hull_depth heps d1 k2 hr⟩
  have hc' : (ConvexBody b1 ∨ BoxBody b1) → DiscBody 0 b2 →
      c.i1 = i1 ∧ c.i2 = i2 ∧ OverlapAtLeast c.pen (bodyRegion b1) (bodyRegion b2) := by
    intro d1 d2
    have c2 := (discBody_facts d2).2.1
    have k1 := flat d1
    simp only [c2, k1.2.1, Bool.false_eq_true, false_and, if_false, false_or, if_true] at h
    rw [Run.bind_eq_done] at h
    obtain ⟨⟨r, l⟩, hr, h⟩ := h
    injection h with h
    have h := (Prod.mk.inj h).2
    subst h
    obtain ⟨q, hq, rfl⟩ := List.mem_map.1 hc
    obtain ⟨k, hk, rfl⟩ := List.mem_map.1 hq
    have hk : r = some k := by simpa using hk
    subst hk
    exact ⟨rfl, rfl, overlapAtLeast_comm (disc_hull_depth heps d2 k1 hr)⟩
  rcases hm with ⟨d1, d2 | d2⟩ | ⟨d1 | d1, d2⟩ | ⟨d1, d2⟩
  · exact cc d1 d2
  · exact ch d1 d2
  · exact cc d1 d2
  · exact hc' d1 d2
  · have k1 := boxBody_facts d1
    have k2 := boxBody_facts d2
    simp only [k1.2.1, k2.2.1, Bool.false_eq_true, and_self, or_self, if_false] at h
    cases hr : hullHull eps b1.pos b2.pos b1.verts b2.verts i1 i2 f with
    | error e => rw [hr] at h; cases h
    | ok r =>
      obtain ⟨f1, pts⟩ := r
      rw [hr] at h
      simp only [Except.map, Run.ofExcept] at h
      injection h with h
      have h := (Prod.mk.inj h).2
      subst h
      obtain ⟨q, hq, rfl⟩ := List.mem_map.1 hc
      refine ⟨rfl, rfl, fun u hu => ?_⟩
      have f1' : RectForm b1.verts := by
        obtain ⟨_, _, _, _, ops, hb, -, -, -, rfl⟩ := d1; exact rect_body_form hb ops
      have f2' : RectForm b2.verts := by
        obtain ⟨_, _, _, _, ops, hb, -, -, -, rfl⟩ := d2; exact rect_body_form hb ops
      obtain ⟨x, hx, y, hy, e⟩ := boxes_depth f1' f2' heps hr hq h0 u (le_of_lt hu)
      refine ⟨x + b1.pos, ?_, ?_⟩
      · rw [(alive_verts k1.1 k1.2.1).2, add_sub_cancel_right]; exact hx
      · rw [(alive_verts k2.1 k2.2.1).2, e, add_sub_cancel_right]; exact hy

theorem handleAll_origin {fuel : ℕ} {nc : ℕ → List ℕ} {eps : ℝ} {bs : List Body} :
    ∀ {ps : List (ℕ × ℕ)} {f f' : Finder} {cs : List Contact},
      handleAll fuel nc eps bs ps f = .done (f', cs) → ∀ c ∈ cs, ∃ p ∈ ps, p.1 ∉ nc p.2 ∧ ∃ g g' cs',
        handlePair fuel eps bs g p.1 p.2 = .done (g', cs') ∧ c ∈ cs'
  | [], f, f', cs, h, c, hc => by
    unfold handleAll at h
    injection h with h
    rw [← (Prod.mk.inj h).2] at hc; simp at hc
  | p0 :: ps, f, f', cs, h, c, hc => by
    unfold handleAll at h
    rw [Run.bind_eq_done] at h
    obtain ⟨r, hr, h⟩ := h
    rw [Run.bind_eq_done] at h
    obtain ⟨s, hs, h⟩ := h
    injection h with h
    have h := (Prod.mk.inj h).2
    subst h
    rcases List.mem_append.1 hc with hc | hc
    · unfold handle at hr
      split_ifs at hr with hx
      · injection hr with hr
        rw [← hr] at hc; simp at hc
      · exact ⟨p0, by simp, hx, f, r.1, r.2, hr, hc⟩
    · obtain ⟨p, hp, hx, k⟩ := handleAll_origin (f' := s.1) (cs := s.2) hs c hc
      exact ⟨p, by simp [hp], hx, k⟩

/-- C102: every contact with positive penetration that the search reports between circles, boxes, or a circle and a
convex hull, is between two bodies that may touch, and they do reach into each other by that much: no shorter
displacement separates them. -/
theorem C102_contact_is_overlap (fuel : ℕ) (nc : ℕ → List ℕ) (pairs : List Body → List (ℕ × ℕ))
    (hi : ∀ bs, ∀ p ∈ pairs bs, p.1 < bs.length ∧ p.2 < bs.length ∧ p.1 ≠ p.2) (eps : ℝ) (heps : 0 ≤ eps)
    (f f' : Finder) (bs : List Body) (cs : List Contact) (h : diffCollide fuel nc pairs eps f bs = .ok (f', cs))
    (hm : ∀ i < bs.length, ∀ j < bs.length, i ≠ j → i ∉ nc j → Measured 0 (bodyAt bs i) (bodyAt bs j))
    (c : Contact) (hc : c ∈ cs) (h0 : 0 < c.pen) :
    c.i1 < bs.length ∧ c.i2 < bs.length ∧ c.i1 ≠ c.i2 ∧ c.i1 ∉ nc c.i2 ∧
      OverlapAtLeast c.pen (bodyRegion (bodyAt bs c.i1)) (bodyRegion (bodyAt bs c.i2)) := by
  unfold diffCollide at h
  cases hr : handleAll fuel nc eps bs (pairs bs) f with
  | running => rw [hr] at h; cases h
  | raised e => rw [hr] at h; cases h
  | done r =>
    rw [hr] at h
    simp only [Run.toExcept] at h
    injection h with h
    subst h
    obtain ⟨p, hp, hx, g, g', cs', h1, h2⟩ := handleAll_origin hr c hc
    obtain ⟨i1, i2, i3⟩ := hi bs p hp
    obtain ⟨e1, e2, e3⟩ := pair_depth heps h1 (hm _ i1 _ i2 i3 hx) h2 h0
    rw [e1, e2]
    exact ⟨i1, i2, i3, hx, e3⟩

end LcpPhysics
