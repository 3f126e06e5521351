import Verif.Model.Pdipm
import Mathlib.Data.List.OfFn

/-! # Lemmas on masked selection and scattering -/

noncomputable section

namespace LcpPhysics

theorem maskedScatter_select {α : Type} (mask : List Bool) (dst x : List α) (h1 : dst.length = mask.length)
    (h2 : x.length = mask.length) :
    ∃ out, maskedScatter mask dst (maskedSelect mask x) = some out ∧ out.length = dst.length ∧
      ∀ i : ℕ, out[i]? = if mask[i]? = some true then x[i]? else dst[i]? := by
  induction mask generalizing dst x with
  | nil =>
    have hd : dst = [] := List.length_eq_zero_iff.1 (by simpa using h1)
    exact ⟨[], by simp [maskedScatter, hd], by simp [hd], by simp [hd]⟩
  | cons m mask ih =>
    cases dst with
    | nil => simp at h1
    | cons d dst =>
      cases x with
      | nil => simp at h2
      | cons a x =>
        obtain ⟨out, ho, hl, hi⟩ := ih dst x (by simpa using h1) (by simpa using h2)
        cases m with
        | true =>
          refine ⟨a :: out, by simp [maskedSelect, maskedScatter, ho], by simp [hl], fun i => ?_⟩
          cases i with
          | zero => simp
          | succ i => simpa using hi i
        | false =>
          refine ⟨d :: out, by simp [maskedSelect, maskedScatter, ho], by simp [hl], fun i => ?_⟩
          cases i with
          | zero => simp
          | succ i => simpa using hi i

theorem flatten_eq_ofFn {α : Type} {B n : ℕ} (x : Fin B → Fin n → α) :
    flatten x = List.ofFn fun k : Fin (B * n) => x k.divNat k.modNat := by
  rw [List.ofFn_mul, flatten, List.flatMap_def]
  congr 1
  rw [← List.ofFn_eq_map]
  congr 1
  funext b
  rw [← List.ofFn_eq_map]
  congr 1
  funext i
  have e1 : ∀ h, Fin.divNat (⟨(b : ℕ) * n + i, h⟩ : Fin (B * n)) = b := by
    intro h
    ext
    simp only [Fin.coe_divNat]
    have hi := i.isLt
    rw [Nat.add_comm, Nat.add_mul_div_right _ _ (by omega), Nat.div_eq_of_lt hi, Nat.zero_add]
  have e2 : ∀ h, Fin.modNat (⟨(b : ℕ) * n + i, h⟩ : Fin (B * n)) = i := by
    intro h
    ext
    simp only [Fin.coe_modNat]
    rw [Nat.add_comm, Nat.add_mul_mod_self_right, Nat.mod_eq_of_lt i.isLt]
  rw [e1, e2]

theorem flatten_length {α : Type} {B n : ℕ} (x : Fin B → Fin n → α) : (flatten x).length = B * n := by
  rw [flatten_eq_ofFn, List.length_ofFn]

theorem flatten_get {α : Type} {B n : ℕ} (x : Fin B → Fin n → α) (b : Fin B) (i : Fin n) :
    (flatten x)[(b : ℕ) * n + i]? = some (x b i) := by
  have hlt : (b : ℕ) * n + i < B * n := by
    have h1 : (b : ℕ) * n + n ≤ B * n := by
      rw [← Nat.succ_mul]; exact Nat.mul_le_mul_right n b.isLt
    have := i.isLt
    omega
  rw [flatten_eq_ofFn, List.getElem?_ofFn, dif_pos hlt]
  congr 1
  have e1 : Fin.divNat (⟨(b : ℕ) * n + i, hlt⟩ : Fin (B * n)) = b := by
    ext
    simp only [Fin.coe_divNat]
    have hi := i.isLt
    rw [Nat.add_comm, Nat.add_mul_div_right _ _ (by omega), Nat.div_eq_of_lt hi, Nat.zero_add]
  have e2 : Fin.modNat (⟨(b : ℕ) * n + i, hlt⟩ : Fin (B * n)) = i := by
    ext
    simp only [Fin.coe_modNat]
    rw [Nat.add_comm, Nat.add_mul_mod_self_right, Nat.mod_eq_of_lt i.isLt]
  rw [e1, e2]

theorem scatterRows_eq {B n : ℕ} (I : Fin B → Bool) (best x : Fin B → Fin n → ℝ) (b : Fin B) (i : Fin n) :
    scatterRows I best x b i = if I b then x b i else best b i := by
  obtain ⟨out, ho, hl, hi⟩ := maskedScatter_select (flatten fun b (_ : Fin n) => I b) (flatten best) (flatten x)
    (by simp [flatten_length]) (by simp [flatten_length])
  have := hi ((b : ℕ) * n + i)
  rw [flatten_get, flatten_get, flatten_get] at this
  simp only [scatterRows, ho, Option.getD_some, List.getD_eq_getElem?_getD, this]
  by_cases h : I b <;> simp [h]


theorem maskedScatter_row_none {ι : Type} [DecidableEq ι] (r : ι) (l : List ι) (hr : r ∉ l)
    (m : List Bool) (d src : List ℝ) :
    maskedScatter (l.map (fun j => decide (r = j)) ++ m) (l.map (fun _ => 0) ++ d) src =
      (maskedScatter m d src).map (l.map (fun _ => 0) ++ ·) := by
  induction l with
  | nil => simp
  | cons a l ih =>
    have h1 : r ≠ a := fun h => hr (by simp [h])
    have h2 : r ∉ l := fun h => hr (by simp [h])
    simp only [List.map_cons, List.cons_append, h1, decide_false, maskedScatter, ih h2, Option.map_map]
    rfl

theorem maskedScatter_row {ι : Type} [DecidableEq ι] (r : ι) (l : List ι) (hn : l.Nodup) (hr : r ∈ l)
    (m : List Bool) (d src : List ℝ) (v : ℝ) :
    maskedScatter (l.map (fun j => decide (r = j)) ++ m) (l.map (fun _ => 0) ++ d) (v :: src) =
      (maskedScatter m d src).map (l.map (fun j => if r = j then v else 0) ++ ·) := by
  induction l with
  | nil => simp at hr
  | cons a l ih =>
    by_cases h1 : r = a
    · have h2 : r ∉ l := h1 ▸ (List.nodup_cons.1 hn).1
      have h3 : l.map (fun j => if r = j then v else 0) = l.map (fun _ => (0 : ℝ)) := by
        apply List.map_congr_left
        intro j hj
        exact if_neg fun h : r = j => h2 (by rw [h]; exact hj)
      simp only [List.map_cons, List.cons_append, h1, decide_true, maskedScatter, if_true]
      rw [← h1, maskedScatter_row_none r l h2, h3, Option.map_map]
      rfl
    · have h2 : r ∈ l := by
        rcases List.mem_cons.1 hr with h | h
        · exact absurd h h1
        · exact h
      simp only [List.map_cons, List.cons_append, h1, decide_false, maskedScatter, ih (List.nodup_cons.1 hn).2 h2,
        Option.map_map, if_false]
      rfl

theorem maskedScatter_eyes {n : ℕ} (R : List (Fin n × ℝ)) :
    maskedScatter (R.flatMap fun r => (List.finRange n).map fun j => decide (r.1 = j))
      (R.flatMap fun _ => (List.finRange n).map fun _ => (0 : ℝ)) (R.map (·.2)) =
      some (R.flatMap fun r => (List.finRange n).map fun j => if r.1 = j then r.2 else 0) := by
  induction R with
  | nil => simp [maskedScatter]
  | cons r R ih =>
    simp only [List.flatMap_cons, List.map_cons]
    rw [maskedScatter_row _ _ (List.nodup_finRange n) (List.mem_finRange _), ih]
    rfl

theorem scatterDiag_eq {B n : ℕ} (v : Fin B → Fin n → ℝ) :
    scatterDiag v = some ((List.finRange B).flatMap fun b => flatten fun i j : Fin n =>
      (Matrix.diagonal (v b)) i j) := by
  have h := maskedScatter_eyes ((List.finRange B).flatMap fun b => (List.finRange n).map fun i => (i, v b i))
  simp only [List.flatMap_assoc, List.map_flatMap, List.flatMap_map, List.map_map] at h
  unfold scatterDiag
  have e : (List.replicate (B * (n * n)) (0 : ℝ)) =
      (List.finRange B).flatMap fun _ => (List.finRange n).flatMap fun _ => (List.finRange n).map fun _ => (0 : ℝ) := by
    symm
    apply List.eq_replicate_iff.2
    constructor
    · simp [List.length_flatMap]
    · intro x hx
      simp only [List.mem_flatMap, List.mem_map] at hx
      obtain ⟨_, _, _, _, _, _, rfl⟩ := hx
      rfl
  simp only [e]
  refine Eq.trans h ?_
  congr 1

end LcpPhysics
