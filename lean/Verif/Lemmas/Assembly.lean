import Verif.Model.Engine
import Verif.Spec.Motion
import Verif.Spec.Plane
import Verif.Lemmas.Plane
import Mathlib.Algebra.BigOperators.Ring.Finset
import Mathlib.Tactic.LinearCombination

/-! # Lemmas about the assembled matrices -/

noncomputable section

namespace LcpPhysics
open Spec

variable {σ φ : Type}

theorem sum3 (f : ℕ → ℝ) (n : ℕ) :
    ∑ k ∈ Finset.range (3 * n), f k =
      ∑ i ∈ Finset.range n, (f (3 * i) + f (3 * i + 1) + f (3 * i + 2)) := by
  induction n with
  | zero => simp
  | succ n ih =>
    rw [Finset.sum_range_succ, ← ih, show 3 * (n + 1) = 3 * n + 1 + 1 + 1 by ring,
      Finset.sum_range_succ, Finset.sum_range_succ, Finset.sum_range_succ]
    ring

/-- A row with entries only in block `i`. -/
def blk (i : ℕ) (a b c : ℝ) : Vec := fun k =>
  if k = 3 * i then a else if k = 3 * i + 1 then b else if k = 3 * i + 2 then c else 0

theorem sum_blk (i n : ℕ) (h : i < n) (a b c : ℝ) (v : Vec) :
    ∑ k ∈ Finset.range (3 * n), blk i a b c k * v k =
      a * v (3 * i) + b * v (3 * i + 1) + c * v (3 * i + 2) := by
  rw [sum3, Finset.sum_eq_single i]
  · simp [blk]
  · intro j _ hj
    have h1 : 3 * j ≠ 3 * i := by omega
    have h2 : 3 * j ≠ 3 * i + 1 := by omega
    have h3 : 3 * j ≠ 3 * i + 2 := by omega
    have h4 : 3 * j + 1 ≠ 3 * i := by omega
    have h5 : 3 * j + 1 ≠ 3 * i + 1 := by omega
    have h6 : 3 * j + 1 ≠ 3 * i + 2 := by omega
    have h7 : 3 * j + 2 ≠ 3 * i := by omega
    have h8 : 3 * j + 2 ≠ 3 * i + 1 := by omega
    have h9 : 3 * j + 2 ≠ 3 * i + 2 := by omega
    unfold blk
    rw [if_neg h1, if_neg h2, if_neg h3, if_neg h4, if_neg h5, if_neg h6, if_neg h7, if_neg h8,
      if_neg h9]
    ring
  · intro hn; exact absurd (Finset.mem_range.2 h) hn

theorem setBlock_row (A B : Mat) (r h i a : ℕ) (ha : a < h) (k : ℕ) :
    setBlock A r h (i * 3) 3 B (r + a) k =
      if k = 3 * i then B a 0 else if k = 3 * i + 1 then B a 1 else if k = 3 * i + 2 then B a 2
      else A (r + a) k := by
  unfold setBlock
  have hr : r ≤ r + a ∧ r + a < r + h := by omega
  have hra : r + a - r = a := by omega
  by_cases h0 : k = 3 * i
  · subst h0
    rw [if_pos ⟨hr, by omega⟩, if_pos rfl, hra, show 3 * i - i * 3 = 0 by omega]
  · by_cases h1 : k = 3 * i + 1
    · subst h1
      rw [if_pos ⟨hr, by omega⟩, if_neg h0, if_pos rfl, hra, show 3 * i + 1 - i * 3 = 1 by omega]
    · by_cases h2 : k = 3 * i + 2
      · subst h2
        rw [if_pos ⟨hr, by omega⟩, if_neg h0, if_neg h1, if_pos rfl, hra,
          show 3 * i + 2 - i * 3 = 2 by omega]
      · rw [if_neg (by omega), if_neg h0, if_neg h1, if_neg h2]

theorem setBlock_other_row (A B : Mat) (r h c w s : ℕ) (hs : s < r ∨ r + h ≤ s) :
    setBlock A r h c w B s = A s := by
  funext k
  unfold setBlock
  rw [if_neg (by omega)]

theorem row_one (A B : Mat) (r h i a n : ℕ) (ha : a < h) (hi : i < n) (v : Vec)
    (hA : ∀ k, A (r + a) k = 0) :
    mv (setBlock A r h (i * 3) 3 B) (3 * n) v (r + a) =
      B a 0 * v (3 * i) + B a 1 * v (3 * i + 1) + B a 2 * v (3 * i + 2) := by
  unfold mv
  rw [← sum_blk i n hi]
  refine Finset.sum_congr rfl fun k _ => ?_
  rw [setBlock_row _ _ _ _ _ _ ha, hA]
  rfl

theorem row_two (A B1 B2 : Mat) (r h i j a n : ℕ) (ha : a < h) (hi : i < n) (hj : j < n) (hij : i ≠ j)
    (v : Vec) (hA : ∀ k, A (r + a) k = 0) :
    mv (setBlock (setBlock A r h (i * 3) 3 B1) r h (j * 3) 3 B2) (3 * n) v (r + a) =
      (B1 a 0 * v (3 * i) + B1 a 1 * v (3 * i + 1) + B1 a 2 * v (3 * i + 2)) +
      (B2 a 0 * v (3 * j) + B2 a 1 * v (3 * j + 1) + B2 a 2 * v (3 * j + 2)) := by
  unfold mv
  rw [← sum_blk i n hi, ← sum_blk j n hj, ← Finset.sum_add_distrib]
  refine Finset.sum_congr rfl fun k _ => ?_
  rw [← add_mul, setBlock_row _ _ _ _ _ _ ha, setBlock_row _ _ _ _ _ _ ha, hA]
  congr 1
  unfold blk
  by_cases h0 : k = 3 * j
  · rw [if_pos h0, if_pos h0, if_neg (by omega), if_neg (by omega), if_neg (by omega), zero_add]
  · rw [if_neg h0, if_neg h0]
    by_cases h1 : k = 3 * j + 1
    · rw [if_pos h1, if_pos h1, if_neg (by omega), if_neg (by omega), if_neg (by omega), zero_add]
    · rw [if_neg h1, if_neg h1]
      by_cases h2 : k = 3 * j + 2
      · rw [if_pos h2, if_pos h2, if_neg (by omega), if_neg (by omega), if_neg (by omega), zero_add]
      · rw [if_neg h2, if_neg h2, add_zero]

theorem mv_congr_row (A B : Mat) (n : ℕ) (v : Vec) (i : ℕ) (h : A i = B i) :
    mv A n v i = mv B n v i := by
  unfold mv; rw [h]

/-! ### mass matrix -/

theorem massLoop_row (bs : List Body) : ∀ (i : ℕ) (A : Mat) (r : ℕ), r < 3 * i →
    massLoop bs i A r = A r := by
  induction bs with
  | nil => intro i A r _; rfl
  | cons b bs ih =>
    intro i A r hr
    unfold massLoop
    rw [ih _ _ _ (by omega), setBlock_other_row _ _ _ _ _ _ _ (by omega)]

theorem massLoop_entry (bs : List Body) : ∀ (i : ℕ) (A : Mat) (_ : ∀ r, 3 * i ≤ r → ∀ k, A r k = 0)
    (m : ℕ) (hm : m < bs.length) (a : ℕ) (_ : a < 3) (k : ℕ),
    massLoop bs i A (3 * (i + m) + a) k =
      blk (i + m) ((bs[m]).M a 0) ((bs[m]).M a 1) ((bs[m]).M a 2) k := by
  induction bs with
  | nil => intro i A _ m hm; simp at hm
  | cons b bs ih =>
    intro i A hA m hm a ha k
    unfold massLoop
    cases m with
    | zero =>
      rw [massLoop_row _ _ _ _ (by omega)]
      have := setBlock_row A b.M (i * 3) 3 i a ha k
      rw [show 3 * (i + 0) + a = i * 3 + a by ring, this, hA _ (by omega)]
      simp [blk]
    | succ m =>
      have h := ih (i + 1) (setBlock A (i * 3) 3 (i * 3) 3 b.M) (by
        intro r hr k
        rw [setBlock_other_row _ _ _ _ _ _ _ (by omega)]
        exact hA r (by omega) k) m (by simpa using hm) a ha k
      rw [show i + (m + 1) = i + 1 + m by ring, h]
      rfl

theorem Body.M_entries (b : Body) :
    b.M 0 0 = b.ang_inertia ∧ b.M 0 1 = 0 ∧ b.M 0 2 = 0 ∧
    b.M 1 0 = 0 ∧ b.M 1 1 = b.mass ∧ b.M 1 2 = 0 ∧
    b.M 2 0 = 0 ∧ b.M 2 1 = 0 ∧ b.M 2 2 = b.mass := by
  simp [Body.M, setBlock]

/-- Rows of the mass matrix. -/
theorem M_entry (w : World σ φ) (m : ℕ) (hm : m < w.bodies.length) (k : ℕ) :
    w.M (3 * m) k = blk m (w.bodies[m]).ang_inertia 0 0 k ∧
    w.M (3 * m + 1) k = blk m 0 (w.bodies[m]).mass 0 k ∧
    w.M (3 * m + 2) k = blk m 0 0 (w.bodies[m]).mass k := by
  have h := fun a ha => massLoop_entry w.bodies 0 (fun _ _ => 0) (fun _ _ _ => rfl) m hm a ha k
  simp only [zero_add] at h
  obtain ⟨h1, h2, h3, h4, h5, h6, h7, h8, h9⟩ := Body.M_entries w.bodies[m]
  refine ⟨?_, ?_, ?_⟩
  · have := h 0 (by norm_num); rw [h1, h2, h3] at this; exact this
  · have := h 1 (by norm_num); rw [h4, h5, h6] at this; exact this
  · have := h 2 (by norm_num); rw [h7, h8, h9] at this; exact this

theorem M_mv (w : World σ φ) (v : Vec) (m : ℕ) (hm : m < w.bodies.length) :
    mv w.M (3 * w.bodies.length) v (3 * m) = (w.bodies[m]).ang_inertia * v (3 * m) ∧
    mv w.M (3 * w.bodies.length) v (3 * m + 1) = (w.bodies[m]).mass * v (3 * m + 1) ∧
    mv w.M (3 * w.bodies.length) v (3 * m + 2) = (w.bodies[m]).mass * v (3 * m + 2) := by
  unfold mv
  refine ⟨?_, ?_, ?_⟩
  · rw [Finset.sum_congr rfl fun k _ => by rw [(M_entry w m hm k).1], sum_blk _ _ hm]; ring
  · rw [Finset.sum_congr rfl fun k _ => by rw [(M_entry w m hm k).2.1], sum_blk _ _ hm]; ring
  · rw [Finset.sum_congr rfl fun k _ => by rw [(M_entry w m hm k).2.2], sum_blk _ _ hm]; ring

/-! ### contact Jacobian -/

theorem JcLoop_row (cs : List Contact) : ∀ (i : ℕ) (A : Mat) (r : ℕ), r < i →
    JcLoop cs i A r = A r := by
  induction cs with
  | nil => intro i A r _; rfl
  | cons c cs ih =>
    intro i A r hr
    unfold JcLoop
    simp only
    rw [ih _ _ _ (by omega), setBlock_other_row _ _ _ _ _ _ _ (by omega),
      setBlock_other_row _ _ _ _ _ _ _ (by omega)]

theorem JcLoop_mv (n : ℕ) (v : Vec) (cs : List Contact) :
    ∀ (i : ℕ) (A : Mat) (_ : ∀ r, i ≤ r → ∀ k, A r k = 0) (m : ℕ) (hm : m < cs.length)
      (_ : cs[m].i1 < n) (_ : cs[m].i2 < n) (_ : cs[m].i1 ≠ cs[m].i2),
      mv (JcLoop cs i A) (3 * n) v (i + m) = Spec.inner cs[m].normal (contactVel cs[m] v) := by
  induction cs with
  | nil => intro i A _ m hm; simp at hm
  | cons c cs ih =>
    intro i A hA m hm h1 h2 h12
    unfold JcLoop
    simp only
    cases m with
    | zero =>
      simp only [List.getElem_cons_zero] at h1 h2 h12 ⊢
      rw [mv_congr_row _ _ _ _ _ (JcLoop_row cs (i + 1) _ (i + 0) (by omega)),
        row_two _ _ _ _ _ _ _ _ _ (by norm_num) h1 h2 h12 _ (fun k => hA _ (by omega) k)]
      simp only [rows3, List.getElem?_cons_zero, contactVel, pointVel, twist, Spec.inner, cross_2d,
        Prod.fst_sub, Prod.snd_sub]
      ring
    | succ m =>
      simp only [List.getElem_cons_succ] at h1 h2 h12 ⊢
      rw [show i + (m + 1) = i + 1 + m by ring]
      refine ih (i + 1) _ ?_ m (by simpa using hm) h1 h2 h12
      intro r hr k
      rw [setBlock_other_row _ _ _ _ _ _ _ (by omega), setBlock_other_row _ _ _ _ _ _ _ (by omega)]
      exact hA r (by omega) k

/-! ### friction Jacobian -/

theorem JfLoop_row (cs : List Contact) : ∀ (i : ℕ) (A : Mat) (r : ℕ), r < 2 * i →
    JfLoop cs i A r = A r := by
  induction cs with
  | nil => intro i A r _; rfl
  | cons c cs ih =>
    intro i A r hr
    unfold JfLoop
    simp only
    rw [ih _ _ _ (by omega), setBlock_other_row _ _ _ _ _ _ _ (by omega),
      setBlock_other_row _ _ _ _ _ _ _ (by omega)]

theorem JfLoop_mv (n : ℕ) (v : Vec) (cs : List Contact) :
    ∀ (i : ℕ) (A : Mat) (_ : ∀ r, 2 * i ≤ r → ∀ k, A r k = 0) (m : ℕ) (hm : m < cs.length)
      (_ : cs[m].i1 < n) (_ : cs[m].i2 < n) (_ : cs[m].i1 ≠ cs[m].i2),
      mv (JfLoop cs i A) (3 * n) v (2 * (i + m)) =
        Spec.inner (tangent cs[m].normal) (contactVel cs[m] v) ∧
      mv (JfLoop cs i A) (3 * n) v (2 * (i + m) + 1) =
        -Spec.inner (tangent cs[m].normal) (contactVel cs[m] v) := by
  induction cs with
  | nil => intro i A _ m hm; simp at hm
  | cons c cs ih =>
    intro i A hA m hm h1 h2 h12
    unfold JfLoop
    simp only
    cases m with
    | zero =>
      simp only [List.getElem_cons_zero] at h1 h2 h12 ⊢
      have e0 : 2 * (i + 0) = i * 2 + 0 := by ring
      have e1 : 2 * (i + 0) + 1 = i * 2 + 1 := by ring
      rw [e1, e0]
      rw [mv_congr_row _ _ _ _ _ (JfLoop_row cs (i + 1) _ (i * 2 + 0) (by omega)),
        mv_congr_row _ _ _ _ _ (JfLoop_row cs (i + 1) _ (i * 2 + 1) (by omega)),
        row_two _ _ _ _ _ _ _ _ _ (by norm_num) h1 h2 h12 _ (fun k => hA _ (by omega) k),
        row_two _ _ _ _ _ _ _ _ _ (by norm_num) h1 h2 h12 _ (fun k => hA _ (by omega) k)]
      simp only [rows3, List.getElem?_cons_zero, List.getElem?_cons_succ, contactVel, pointVel,
        twist, Spec.inner, cross_2d, Prod.fst_sub, Prod.snd_sub, tangent, left_orthogonal,
        Prod.fst_neg, Prod.snd_neg]
      constructor <;> ring
    | succ m =>
      simp only [List.getElem_cons_succ] at h1 h2 h12 ⊢
      rw [show i + (m + 1) = i + 1 + m by ring]
      refine ih (i + 1) _ ?_ m (by simpa using hm) h1 h2 h12
      intro r hr k
      rw [setBlock_other_row _ _ _ _ _ _ _ (by omega), setBlock_other_row _ _ _ _ _ _ _ (by omega)]
      exact hA r (by omega) k

/-! ### equality Jacobian -/

/-- First row of the block of joint `m`. -/
def rowOffset (js : List Joint) (m : ℕ) : ℕ :=
  ((js.take m).map fun j => j.kind.num_constraints).sum

theorem JeLoop_row (js : List Joint) : ∀ (row : ℕ) (A : Mat) (r : ℕ), r < row →
    JeLoop js row A r = A r := by
  induction js with
  | nil => intro i A r _; rfl
  | cons j js ih =>
    intro row A r hr
    unfold JeLoop
    simp only
    rw [ih _ _ _ (by omega)]
    cases j.J.2 <;> cases j.i2 <;> simp only <;>
      first
      | rw [setBlock_other_row _ _ _ _ _ _ _ (by omega),
          setBlock_other_row _ _ _ _ _ _ _ (by omega)]
      | rw [setBlock_other_row _ _ _ _ _ _ _ (by omega)]

/-- Contribution of one joint's blocks to its row `a`. -/
def Joint.rowVal (j : Joint) (v : Vec) (a : ℕ) : ℝ :=
  (j.J.1 a 0 * v (3 * j.i1) + j.J.1 a 1 * v (3 * j.i1 + 1) + j.J.1 a 2 * v (3 * j.i1 + 2)) +
  match j.J.2, j.i2 with
  | some J2, some i2 => J2 a 0 * v (3 * i2) + J2 a 1 * v (3 * i2 + 1) + J2 a 2 * v (3 * i2 + 2)
  | _, _ => 0

theorem JeLoop_mv (n : ℕ) (v : Vec) (js : List Joint) :
    ∀ (row : ℕ) (A : Mat) (_ : ∀ r, row ≤ r → ∀ k, A r k = 0) (m : ℕ) (hm : m < js.length)
      (_ : js[m].i1 < n) (_ : ∀ k ∈ js[m].i2, k < n ∧ js[m].i1 ≠ k) (a : ℕ)
      (_ : a < js[m].kind.num_constraints),
      mv (JeLoop js row A) (3 * n) v (row + rowOffset js m + a) = js[m].rowVal v a := by
  induction js with
  | nil => intro i A _ m hm; simp at hm
  | cons j js ih =>
    intro row A hA m hm h1 h2 a ha
    unfold JeLoop
    simp only
    cases m with
    | zero =>
      simp only [List.getElem_cons_zero] at h1 h2 ha ⊢
      simp only [rowOffset, List.take_zero, List.map_nil, List.sum_nil, add_zero]
      rw [mv_congr_row _ _ _ _ _ (JeLoop_row js _ _ _ (by omega))]
      unfold Joint.rowVal
      cases hJ : j.J.2 with
      | none =>
        simp only
        rw [row_one _ _ _ _ _ _ _ ha h1 _ (fun k => hA _ (by omega) k), add_zero]
      | some J2 =>
        cases hi : j.i2 with
        | none =>
          simp only
          rw [row_one _ _ _ _ _ _ _ ha h1 _ (fun k => hA _ (by omega) k), add_zero]
        | some i2 =>
          obtain ⟨h3, h4⟩ := h2 i2 hi
          simp only
          rw [row_two _ _ _ _ _ _ _ _ _ ha h1 h3 h4 _ (fun k => hA _ (by omega) k)]
    | succ m =>
      simp only [List.getElem_cons_succ] at h1 h2 ha ⊢
      have : row + rowOffset (j :: js) (m + 1) + a =
          row + j.kind.num_constraints + rowOffset js m + a := by
        simp [rowOffset]; ring
      rw [this]
      refine ih _ _ ?_ m (by simpa using hm) h1 h2 a ha
      intro r hr k
      cases j.J.2 <;> cases j.i2 <;> simp only <;>
        first
        | rw [setBlock_other_row _ _ _ _ _ _ _ (by omega),
            setBlock_other_row _ _ _ _ _ _ _ (by omega)]; exact hA r (by omega) k
        | rw [setBlock_other_row _ _ _ _ _ _ _ (by omega)]; exact hA r (by omega) k

/-! ### E -/

theorem ELoop_entry (n : ℕ) (r c : ℕ) :
    ELoop 2 n r c = if c < n ∧ (r = 2 * c ∨ r = 2 * c + 1) then 1 else 0 := by
  induction n with
  | zero => simp [ELoop]
  | succ n ih =>
    unfold ELoop
    rw [ih]
    by_cases h : (n * 2 ≤ r ∧ r < (n + 1) * 2) ∧ c = n
    · rw [if_pos h, if_neg (by omega), if_pos (by omega)]; norm_num
    · rw [if_neg h]
      by_cases h2 : c < n ∧ (r = 2 * c ∨ r = 2 * c + 1)
      · rw [if_pos h2, if_pos (by omega)]
      · rw [if_neg h2, if_neg (by omega)]

end LcpPhysics
