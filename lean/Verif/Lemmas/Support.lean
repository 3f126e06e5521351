import Verif.Model.Contacts
import Verif.Lemmas.Plane
import Mathlib.Analysis.Convex.Combination

/-! # Lemmas: supports, linear functions on convex hulls, nearest points -/

noncomputable section

namespace LcpPhysics
open Spec

theorem inner_add_left (a b c : V2) : inner (a + b) c = inner a c + inner b c := by
  simp only [inner, Prod.fst_add, Prod.snd_add]; ring

theorem inner_sub_left (a b c : V2) : inner (a - b) c = inner a c - inner b c := by
  simp only [inner, Prod.fst_sub, Prod.snd_sub]; ring

theorem inner_sub_right (a b c : V2) : inner a (b - c) = inner a b - inner a c := by
  simp only [inner, Prod.fst_sub, Prod.snd_sub]; ring

theorem inner_add_right (a b c : V2) : inner a (b + c) = inner a b + inner a c := by
  simp only [inner, Prod.fst_add, Prod.snd_add]; ring

theorem inner_smul_left (k : ℝ) (a b : V2) : inner (k • a) b = k * inner a b := by
  simp only [inner, Prod.smul_fst, Prod.smul_snd, smul_eq_mul]; ring

theorem inner_smul_right (k : ℝ) (a b : V2) : inner a (k • b) = k * inner a b := by
  simp only [inner, Prod.smul_fst, Prod.smul_snd, smul_eq_mul]; ring

theorem inner_neg_left (a b : V2) : inner (-a) b = -inner a b := by
  simp only [inner, Prod.fst_neg, Prod.snd_neg]; ring

theorem inner_neg_right (a b : V2) : inner a (-b) = -inner a b := by
  simp only [inner, Prod.fst_neg, Prod.snd_neg]; ring

theorem inner_zero_left (b : V2) : inner 0 b = 0 := by simp [inner]

/-- A linear bound on the vertices holds on the solid polygon. -/
theorem solid_inner_le {vs : List V2} {d : V2} {m : ℝ} (h : ∀ v ∈ vs, inner v d ≤ m) :
    ∀ x ∈ solid vs, inner x d ≤ m := by
  have hc : Convex ℝ {x : V2 | inner x d ≤ m} := by
    intro x hx y hy a b ha hb hab
    show inner (a • x + b • y) d ≤ m
    rw [inner_add_left, inner_smul_left, inner_smul_left]
    have hx : inner x d ≤ m := hx
    have hy : inner y d ≤ m := hy
    have e : a * m + b * m = m := by rw [← add_mul, hab, one_mul]
    linarith [mul_le_mul_of_nonneg_left hx ha, mul_le_mul_of_nonneg_left hy hb]
  intro x hx
  exact convexHull_min (fun v hv => h v hv) hc hx

theorem solid_le_inner {vs : List V2} {d : V2} {m : ℝ} (h : ∀ v ∈ vs, m ≤ inner v d) :
    ∀ x ∈ solid vs, m ≤ inner x d := by
  intro x hx
  have := solid_inner_le (vs := vs) (d := -d) (m := -m)
    (fun v hv => by rw [inner_neg_right]; linarith [h v hv]) x hx
  rw [inner_neg_right] at this
  linarith

theorem mem_solid {vs : List V2} {v : V2} (h : v ∈ vs) : v ∈ solid vs := subset_convexHull ℝ _ h

theorem solid_mono {vs ws : List V2} (h : ∀ v ∈ vs, v ∈ ws) : solid vs ⊆ solid ws :=
  convexHull_mono fun v hv => h v hv

theorem solid_convex (vs : List V2) : Convex ℝ (solid vs) := convex_convexHull _ _

theorem solid_combo2 {vs : List V2} {a b : V2} (ha : a ∈ solid vs) (hb : b ∈ solid vs) {u v : ℝ}
    (hu : 0 ≤ u) (hv : 0 ≤ v) (h : u + v = 1) : u • a + v • b ∈ solid vs :=
  solid_convex vs ha hb hu hv h

theorem solid_combo3 {vs : List V2} {a b c : V2} (ha : a ∈ solid vs) (hb : b ∈ solid vs)
    (hc : c ∈ solid vs) {u v w : ℝ} (hu : 0 ≤ u) (hv : 0 ≤ v) (hw : 0 ≤ w) (h : u + v + w = 1) :
    u • a + v • b + w • c ∈ solid vs := by
  by_cases h1 : u + v = 0
  · have hu0 : u = 0 := by linarith
    have hv0 : v = 0 := by linarith
    have hw1 : w = 1 := by linarith
    rw [hu0, hv0, hw1]; simpa using hc
  · have hpos : 0 < u + v := lt_of_le_of_ne (by linarith) (Ne.symm h1)
    have hab := solid_combo2 ha hb (u := u / (u + v)) (v := v / (u + v)) (by positivity)
      (by positivity) (by field_simp)
    have := solid_combo2 hab hc (u := u + v) (v := w) (by linarith) hw h
    have e : (u + v) • ((u / (u + v)) • a + (v / (u + v)) • b) + w • c = u • a + v • b + w • c := by
      rw [smul_add, smul_smul, smul_smul]
      congr 3 <;> field_simp
    rwa [e] at this

/-- Variational inequality: sufficient for a nearest point. -/
theorem nearest_of_inner {S : Set V2} {p q : V2} (hq : q ∈ S)
    (h : ∀ w ∈ S, inner (w - q) (p - q) ≤ 0) : IsNearest S p q := by
  refine ⟨hq, fun w hw => ?_⟩
  unfold Spec.dist
  rw [len_eq_sqrt_inner, len_eq_sqrt_inner]
  apply Real.sqrt_le_sqrt
  have h1 := h w hw
  have h2 := inner_self_nonneg (w - q)
  have e : inner (p - w) (p - w) =
      inner (p - q) (p - q) - 2 * inner (w - q) (p - q) + inner (w - q) (w - q) := by
    simp only [inner, Prod.fst_sub, Prod.snd_sub]; ring
  rw [e]; linarith

/-- … for the solid of a list it is enough to check the vertices. -/
theorem nearest_of_verts {vs : List V2} {p q : V2} (hq : q ∈ solid vs)
    (h : ∀ w ∈ vs, inner (w - q) (p - q) ≤ 0) : IsNearest (solid vs) p q := by
  apply nearest_of_inner hq
  intro w hw
  have := solid_inner_le (vs := vs) (d := p - q) (m := inner q (p - q))
    (fun v hv => by have := h v hv; rw [inner_sub_left] at this; linarith) w hw
  rw [inner_sub_left]; linarith

/-- The variational inequality is also necessary. -/
theorem nearest_inner {S : Set V2} (hS : Convex ℝ S) {p q : V2} (h : IsNearest S p q) :
    ∀ w ∈ S, inner (w - q) (p - q) ≤ 0 := by
  intro w hw
  by_contra hc
  have hc : 0 < inner (w - q) (p - q) := not_le.1 hc
  have hww : 0 < inner (w - q) (w - q) := by
    rcases (inner_self_nonneg (w - q)).lt_or_eq with h1 | h1
    · exact h1
    · have : w - q = 0 := inner_self_eq_zero.1 h1.symm
      rw [this, inner_zero_left] at hc
      exact absurd hc (lt_irrefl _)
  set t := min 1 (inner (w - q) (p - q) / inner (w - q) (w - q)) with ht
  have ht0 : 0 < t := lt_min one_pos (div_pos hc hww)
  have ht1 : t ≤ 1 := min_le_left _ _
  have ht2 : t * inner (w - q) (w - q) ≤ inner (w - q) (p - q) := by
    have := min_le_right 1 (inner (w - q) (p - q) / inner (w - q) (w - q))
    rw [← ht] at this
    calc t * inner (w - q) (w - q) ≤ _ := mul_le_mul_of_nonneg_right this hww.le
      _ = _ := div_mul_cancel₀ _ hww.ne'
  have hmem : (1 - t) • q + t • w ∈ S := hS h.1 hw (by linarith) ht0.le (by ring)
  have hd := h.2 _ hmem
  unfold Spec.dist at hd
  rw [len_eq_sqrt_inner, len_eq_sqrt_inner, Real.sqrt_le_sqrt_iff (inner_self_nonneg _)] at hd
  have e : inner (p - ((1 - t) • q + t • w)) (p - ((1 - t) • q + t • w)) =
      inner (p - q) (p - q) - 2 * t * inner (w - q) (p - q) + t ^ 2 * inner (w - q) (w - q) := by
    simp only [inner, Prod.fst_sub, Prod.snd_sub, Prod.fst_add, Prod.snd_add, Prod.smul_fst,
      Prod.smul_snd, smul_eq_mul]
    ring
  rw [e] at hd
  nlinarith

/-- Nearest points are unique. -/
theorem nearest_unique {S : Set V2} (hS : Convex ℝ S) {p q q' : V2} (h : IsNearest S p q)
    (h' : IsNearest S p q') : q = q' := by
  have h1 := nearest_inner hS h q' h'.1
  have h2 := nearest_inner hS h' q h.1
  have e : inner (q' - q) (q' - q) = inner (q' - q) (p - q) + inner (q - q') (p - q') := by
    simp only [inner, Prod.fst_sub, Prod.snd_sub]; ring
  have : q' - q = 0 := inner_self_eq_zero.1 (le_antisymm (by linarith) (inner_self_nonneg _))
  exact (sub_eq_zero.1 this).symm

/-! ## the support loop -/

/-- The loop either finds nothing better, or the last maximum. -/
theorem supportLoop_spec (d : V2) : ∀ (ps : List V2) (i : ℕ) (best : Option (V2 × ℕ)) (bn : ℝ),
    (supportLoop d ps i best bn = best ∧ ∀ q ∈ ps, inner q d < bn) ∨
    ∃ (j : ℕ) (hj : j < ps.length), supportLoop d ps i best bn = some (ps[j], i + j) ∧
      bn ≤ inner ps[j] d ∧ (∀ q ∈ ps, inner q d ≤ inner ps[j] d) ∧
      ∀ (k : ℕ) (hk : k < ps.length), j < k → inner ps[k] d < inner ps[j] d
  | [], i, best, bn => Or.inl ⟨rfl, fun q hq => by cases hq⟩
  | p :: ps, i, best, bn => by
    by_cases h : dot p d ≥ bn
    · have hs : supportLoop d (p :: ps) i best bn = supportLoop d ps (i + 1) (some (p, i)) (dot p d) :=
        if_pos h
      right
      rcases supportLoop_spec d ps (i + 1) (some (p, i)) (dot p d) with ⟨h1, h2⟩ | ⟨j, hj, h1, h2, h3, h4⟩
      · refine ⟨0, by simp, by rw [hs, h1]; rfl, h, ?_, ?_⟩
        · intro q hq
          rcases List.mem_cons.1 hq with rfl | hq
          · exact le_refl _
          · exact (h2 q hq).le
        · intro k hk hk0
          obtain ⟨k', rfl⟩ : ∃ k', k = k' + 1 := ⟨k - 1, by omega⟩
          exact h2 _ (List.getElem_mem _)
      · refine ⟨j + 1, by simpa using hj, by rw [hs, h1]; simp; omega, le_trans h h2, ?_, ?_⟩
        · intro q hq
          rcases List.mem_cons.1 hq with rfl | hq
          · exact h2
          · exact h3 q hq
        · intro k hk hk0
          obtain ⟨k', rfl⟩ : ∃ k', k = k' + 1 := ⟨k - 1, by omega⟩
          exact h4 k' (by simpa using hk) (by omega)
    · have hs : supportLoop d (p :: ps) i best bn = supportLoop d ps (i + 1) best bn := if_neg h
      have h' : inner p d < bn := not_le.1 h
      rcases supportLoop_spec d ps (i + 1) best bn with ⟨h1, h2⟩ | ⟨j, hj, h1, h2, h3, h4⟩
      · left
        refine ⟨by rw [hs, h1], fun q hq => ?_⟩
        rcases List.mem_cons.1 hq with rfl | hq
        · exact h'
        · exact h2 q hq
      · right
        refine ⟨j + 1, by simpa using hj, by rw [hs, h1]; simp; omega, h2, ?_, ?_⟩
        · intro q hq
          rcases List.mem_cons.1 hq with rfl | hq
          · exact (lt_of_lt_of_le h' h2).le
          · exact h3 q hq
        · intro k hk hk0
          obtain ⟨k', rfl⟩ : ∃ k', k = k' + 1 := ⟨k - 1, by omega⟩
          exact h4 k' (by simpa using hk) (by omega)

theorem get_support_argmax (pts : List V2) (d p : V2) (i : ℕ) (h : get_support pts d = .ok (p, i)) :
    ∃ hi : i < pts.length, p = pts[i] ∧ (∀ x ∈ solid pts, inner x d ≤ inner p d) ∧
      ∀ (k : ℕ) (hk : k < pts.length), i < k → inner pts[k] d < inner p d := by
  unfold get_support at h
  rcases supportLoop_spec d pts 0 none (-1) with ⟨h1, -⟩ | ⟨j, hj, h1, h2, h3, h4⟩
  · rw [h1] at h; cases h
  · rw [h1] at h
    injection h with h
    injection h with hp hi
    rw [Nat.zero_add] at hi
    subst hi
    subst hp
    exact ⟨hj, rfl, solid_inner_le h3, h4⟩

theorem get_support_raises_iff (pts : List V2) (d : V2) :
    (∃ e, get_support pts d = .error e) ↔ ∀ q ∈ pts, inner q d < -1 := by
  unfold get_support
  rcases supportLoop_spec d pts 0 none (-1) with ⟨h1, h2⟩ | ⟨j, hj, h1, h2, h3, h4⟩
  · rw [h1]; exact ⟨fun _ => h2, fun _ => ⟨_, rfl⟩⟩
  · rw [h1]
    constructor
    · rintro ⟨e, he⟩; cases he
    intro h
    have := h _ (List.getElem_mem hj)
    linarith

theorem get_support_total (pts : List V2) (d : V2) (h0 : (0 : V2) ∈ solid pts) :
    ∃ p i, get_support pts d = .ok (p, i) := by
  cases hg : get_support pts d with
  | ok r => exact ⟨r.1, r.2, rfl⟩
  | error e =>
    have h1 := (get_support_raises_iff pts d).1 ⟨e, hg⟩
    have h2 := solid_inner_le (fun v hv => (h1 v hv).le) 0 h0
    rw [inner_zero_left] at h2
    norm_num at h2

end LcpPhysics
