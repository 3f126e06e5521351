import Verif.Model.TensorUtil
import Verif.Lemmas.Masked
import Mathlib.Tactic.IntervalCases

/-! # C63: shapes in the LCP utilities -/

noncomputable section

namespace LcpPhysics

/-- C63: `bger` succeeds exactly on two matrices with the same number of rows, and returns the batch
of outer products. -/
theorem C63_bger (x y : Tensor) :
    ((∃ r, bgerT x y = .ok r) ↔ ∃ B n m, x.shape = [B, n] ∧ y.shape = [B, m]) ∧
    ∀ r B n m, x.shape = [B, n] → y.shape = [B, m] → bgerT x y = .ok r →
      r.shape = [B, n, m] ∧ ∀ b i j, r.val [b, i, j] = x.val [b, i] * y.val [b, j] := by
  obtain ⟨sx, vx⟩ := x
  obtain ⟨sy, vy⟩ := y
  constructor
  · constructor
    · rintro ⟨r, h⟩
      unfold bgerT Tensor.unsqueeze at h
      by_cases h1 : 2 ≤ (Tensor.mk sx vx).dim
      · rw [if_pos h1] at h
        by_cases h2 : 1 ≤ (Tensor.mk sy vy).dim
        · rw [if_pos h2] at h
          simp only [Tensor.dim] at h1 h2
          match sx, sy, h1, h2, h with
          | [B, n], [B', m], _, _, h =>
            by_cases hb : B = B'
            · exact ⟨B, n, m, rfl, by rw [hb]⟩
            · simp [Tensor.bmm, bind, Except.bind, hb] at h
          | [B, n], [B'], _, _, h => simp [Tensor.bmm, bind, Except.bind] at h
          | [B, n], _ :: _ :: _ :: _, _, _, h => simp [Tensor.bmm, bind, Except.bind] at h
          | _ :: _ :: _ :: _, _ :: _, _, _, h => simp [Tensor.bmm, bind, Except.bind] at h
        · rw [if_neg h2] at h; simp [bind, Except.bind] at h
      · rw [if_neg h1] at h; simp [bind, Except.bind] at h
    · rintro ⟨B, n, m, rfl, rfl⟩
      exact ⟨_, by simp [bgerT, Tensor.unsqueeze, Tensor.dim, Tensor.bmm, bind, Except.bind]; rfl⟩
  · rintro r B n m rfl rfl h
    simp [bgerT, Tensor.unsqueeze, Tensor.dim, Tensor.bmm, bind, Except.bind] at h
    subst h
    exact ⟨rfl, fun b i j => by simp⟩

/-- C63: `get_sizes` reads the sizes off matrices and batches of matrices, and raises exactly for other
ranks of `G` and for `A` of rank above three. -/
theorem C63_get_sizes (G : Tensor) (A : Option Tensor) :
    (∀ nineq nz, G.shape = [nineq, nz] → (∀ a, A = some a → a.dim ≤ 3) →
      ∃ neq, get_sizes G A = .ok (nineq, nz, neq, 1)) ∧
    (∀ B nineq nz, G.shape = [B, nineq, nz] → (∀ a, A = some a → a.dim ≤ 3) →
      ∃ neq, get_sizes G A = .ok (nineq, nz, neq, B)) ∧
    (∀ r, get_sizes G A = .ok r → (r.2.2.1 = none ↔ A = none) ∧ ∀ a, A = some a →
      (a.dim ≤ 1 → r.2.2.1 = some 0) ∧ (∀ m n, a.shape = [m, n] → r.2.2.1 = some m) ∧
      (∀ B m n, a.shape = [B, m, n] → r.2.2.1 = some m)) ∧
    ((∃ e, get_sizes G A = .error e) ↔ (G.dim ≠ 2 ∧ G.dim ≠ 3) ∨ ∃ a, A = some a ∧ 3 < a.dim) := by
  obtain ⟨sg, vg⟩ := G
  have hA : A = none ∨ (∃ v, A = some ⟨[], v⟩) ∨ (∃ m v, A = some ⟨[m], v⟩) ∨ (∃ m n v, A = some ⟨[m, n], v⟩) ∨
      (∃ b m n v, A = some ⟨[b, m, n], v⟩) ∨ (∃ a b c d l v, A = some ⟨a :: b :: c :: d :: l, v⟩) := by
    rcases A with _ | ⟨s, v⟩
    · simp
    · rcases s with _ | ⟨a, _ | ⟨b, _ | ⟨c, _ | ⟨d, l⟩⟩⟩⟩ <;> simp
  have hG : sg = [] ∨ (∃ a, sg = [a]) ∨ (∃ a b, sg = [a, b]) ∨ (∃ a b c, sg = [a, b, c]) ∨
      (∃ a b c d l, sg = a :: b :: c :: d :: l) := by
    rcases sg with _ | ⟨a, _ | ⟨b, _ | ⟨c, _ | ⟨d, l⟩⟩⟩⟩ <;> simp
  rcases hA with rfl | ⟨v, rfl⟩ | ⟨_, v, rfl⟩ | ⟨_, _, v, rfl⟩ | ⟨_, _, _, v, rfl⟩ | ⟨_, _, _, _, _, v, rfl⟩ <;>
  rcases hG with rfl | ⟨_, rfl⟩ | ⟨_, _, rfl⟩ | ⟨_, _, _, rfl⟩ | ⟨_, _, _, _, _, rfl⟩ <;>
  simp [get_sizes, Tensor.dim, bind, Except.bind, pure, Except.pure]

/-- C63: `bdiag` succeeds exactly when the batch or the size is one; the result is then the batch of
diagonal matrices. -/
theorem C63_bdiag {nBatch sz : ℕ} (d : Fin nBatch → Fin sz → ℝ) :
    ((∃ r, bdiag d = .ok r) ↔ nBatch = 1 ∨ sz = 1) ∧
    ∀ r, bdiag d = .ok r → r = (List.finRange nBatch).flatMap fun b => flatten fun i j : Fin sz => if i = j then d b i else 0 := by
  have hb : broadcastable (squeezeShape [nBatch, sz]) [nBatch * sz] = true ↔ nBatch = 1 ∨ sz = 1 := by
    by_cases h1 : nBatch = 1 <;> by_cases h2 : sz = 1 <;> simp [broadcastable, squeezeShape, h1, h2]
  have hs := scatterDiag_eq d
  constructor
  · rw [← hb]
    constructor
    · rintro ⟨r, h⟩
      by_contra hc
      rw [bdiag, if_neg hc] at h
      cases h
    · intro h
      exact ⟨_, by rw [bdiag, if_pos h, hs]⟩
  · intro r h
    by_cases hc : broadcastable (squeezeShape [nBatch, sz]) [nBatch * sz] = true
    · rw [bdiag, if_pos hc, hs] at h
      cases h
      rfl
    · rw [bdiag, if_neg hc] at h
      cases h

/-- C63: `bdiag` fails on a proper batch, whatever the entries. -/
theorem C63_bdiag_batch_raises {nBatch sz : ℕ} (hB : 1 < nBatch) (hs : 1 < sz) (d : Fin nBatch → Fin sz → ℝ) :
    ∃ e, bdiag d = .error e := by
  cases h : bdiag d with
  | error e => exact ⟨e, rfl⟩
  | ok r =>
    rcases (C63_bdiag d).1.1 ⟨r, h⟩ with h | h <;> omega

/-- C63: `expandParam` returns scalars and batched parameters unchanged, repeats an unbatched one
`nBatch` times, and raises exactly for other ranks. -/
theorem C63_expandParam (X : Tensor) (nBatch nDim : ℕ) :
    (X.dim = 0 ∨ X.dim = nDim → expandParam X nBatch nDim = .ok (X, false)) ∧
    (X.dim ≠ 0 → X.dim + 1 = nDim → ∃ Y, expandParam X nBatch nDim = .ok (Y, true) ∧ Y.shape = nBatch :: X.shape ∧
      ∀ b i, i.length = X.dim → (∀ k, i.getD k 0 < X.shape.getD k 1) → Y.val (b :: i) = X.val i) ∧
    ((∃ e, expandParam X nBatch nDim = .error e) ↔ X.dim ≠ 0 ∧ X.dim ≠ nDim ∧ X.dim + 1 ≠ nDim) := by
  have hzip : ∀ (s i : List ℕ), i.length = s.length → (∀ k, i.getD k 0 < s.getD k 1) →
      List.zipWith (fun s k => if s = 1 then 0 else k) s i = i := by
    intro s
    induction s with
    | nil => intro i hi _; simp at hi; simp [hi]
    | cons a s ih =>
      intro i hi hk
      rcases i with _ | ⟨k, i⟩
      · simp at hi
      · simp only [List.zipWith_cons_cons]
        rw [ih i (by simpa using hi) (fun j => by simpa using hk (j + 1))]
        have := hk 0
        simp at this
        split_ifs with h1
        · have : k = 0 := by omega
          rw [this]
        · rfl
  have hsecond : X.dim ≠ 0 → X.dim + 1 = nDim → ∃ Y, expandParam X nBatch nDim = .ok (Y, true) ∧ Y.shape = nBatch :: X.shape ∧
      ∀ b i, i.length = X.dim → (∀ k, i.getD k 0 < X.shape.getD k 1) → Y.val (b :: i) = X.val i := by
    intro h0 h1
    refine ⟨⟨nBatch :: X.shape, fun i => X.val ((List.zipWith (fun s k => if s = 1 then 0 else k) (1 :: X.shape) i).eraseIdx 0)⟩, ?_, rfl, ?_⟩
    · have hall : ∀ p ∈ (1 :: X.shape).zip (nBatch :: X.shape), p.1 = 1 ∨ p.1 = p.2 := by
        intro p hp
        rw [List.zip_cons_cons, List.mem_cons] at hp
        rcases hp with rfl | hp
        · left; rfl
        · right
          obtain ⟨k, hk, rfl⟩ := List.getElem_of_mem hp
          rw [List.getElem_zip]
      unfold expandParam
      rw [if_neg (by omega), if_pos (by omega)]
      simp only [Tensor.unsqueeze, Nat.zero_le, if_true, bind, Except.bind, Tensor.expand, List.insertIdx_zero]
      rw [if_pos ⟨by simp, hall⟩]
      rfl
    · intro b i hi hk
      simp [hzip X.shape i (by simpa [Tensor.dim] using hi) hk]
  refine ⟨fun h => by rw [expandParam, if_pos h], hsecond, ?_⟩
  constructor
  · rintro ⟨e, he⟩
    by_cases h1 : X.dim = 0 ∨ X.dim = nDim
    · rw [expandParam, if_pos h1] at he; cases he
    · by_cases h2 : X.dim + 1 = nDim
      · obtain ⟨Y, hY, -⟩ := hsecond (fun h => h1 (.inl h)) h2
        rw [hY] at he; cases he
      · exact ⟨fun h => h1 (.inl h), fun h => h1 (.inr h), h2⟩
  · rintro ⟨h0, h1, h2⟩
    exact ⟨_, by rw [expandParam, if_neg (by tauto), if_neg (by omega)]⟩

/-- C63: `extract_batch_size` is the batch size common to the batched parameters, and one if none is
batched. -/
theorem C63_extract_batch_size (Q p G h A b : Tensor) (B : ℕ)
    (hQ : Q.dim = 3 → Q.shape.head? = some B) (hp : p.dim = 2 → p.shape.head? = some B)
    (hG : G.dim = 3 → G.shape.head? = some B) (hh : h.dim = 2 → h.shape.head? = some B)
    (hA : A.dim = 3 → A.shape.head? = some B) (hb : b.dim = 2 → b.shape.head? = some B) :
    (Q.dim = 3 ∨ p.dim = 2 ∨ G.dim = 3 ∨ h.dim = 2 ∨ A.dim = 3 ∨ b.dim = 2 → extract_batch_size Q p G h A b = B) ∧
    (¬ (Q.dim = 3 ∨ p.dim = 2 ∨ G.dim = 3 ∨ h.dim = 2 ∨ A.dim = 3 ∨ b.dim = 2) → extract_batch_size Q p G h A b = 1) := by
  have hd : ∀ l : List ℕ, l.head? = some B → l.getD 0 0 = B := by
    intro l hl
    cases l with
    | nil => simp at hl
    | cons a l => simpa using hl
  simp only [extract_batch_size, List.zip_cons_cons, batchSizeLoop]
  constructor
  · intro hor
    split_ifs with h1 h2 h3 h4 h5 h6
    · exact hd _ (hQ h1)
    · exact hd _ (hp h2)
    · exact hd _ (hG h3)
    · exact hd _ (hh h4)
    · exact hd _ (hA h5)
    · exact hd _ (hb h6)
    · tauto
  · intro hn
    simp only [not_or] at hn
    obtain ⟨h1, h2, h3, h4, h5, h6⟩ := hn
    rw [if_neg h1, if_neg h2, if_neg h3, if_neg h4, if_neg h5, if_neg h6]
    rfl

/-- C63: a batched parameter with another batch size later in the list goes unnoticed. -/
theorem C63_extract_batch_size_inconsistent : ∃ Q p G h A b : Tensor,
    Q.shape = [2, 1, 1] ∧ p.shape = [3, 1] ∧ extract_batch_size Q p G h A b = 2 :=
  ⟨⟨[2, 1, 1], fun _ => 0⟩, ⟨[3, 1], fun _ => 0⟩, ⟨[1, 1], fun _ => 0⟩, ⟨[1], fun _ => 0⟩, ⟨[1, 1], fun _ => 0⟩, ⟨[1], fun _ => 0⟩,
    rfl, rfl, rfl⟩

example : bdiag (fun (_ : Fin 1) (i : Fin 2) => (i : ℝ) + 1) = .ok [1, 0, 0, 2] := by
  obtain ⟨⟨-, h⟩, h2⟩ := C63_bdiag (fun (_ : Fin 1) (i : Fin 2) => (i : ℝ) + 1)
  obtain ⟨r, hr⟩ := h (.inl rfl)
  rw [hr, h2 r hr]
  norm_num [flatten, List.finRange_succ]

example : (∃ r, bgerT ⟨[2, 3], fun _ => 1⟩ ⟨[2, 4], fun _ => 2⟩ = .ok r ∧ r.shape = [2, 3, 4]) := by
  obtain ⟨⟨-, h⟩, h2⟩ := C63_bger ⟨[2, 3], fun _ => 1⟩ ⟨[2, 4], fun _ => 2⟩
  obtain ⟨r, hr⟩ := h ⟨2, 3, 4, rfl, rfl⟩
  exact ⟨r, hr, (h2 r 2 3 4 rfl rfl hr).1⟩

end LcpPhysics
