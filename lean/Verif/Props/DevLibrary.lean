import Verif.Props.DevRuns
import Verif.Props.SolverBatch

/-!
# C116: without regularisation the variants of the development solver return what the library returns
-/

noncomputable section

namespace LcpPhysics
open Matrix Spec

variable {nz nineq neq : ℕ}

/-- A pass of the library's loop is a pass of the development solver with the same steps. -/
theorem devStep_library [NeZero nineq] {s : (Fin nineq → ℝ) → Iter nz nineq neq → Option (Iter nz nineq neq)} {P : Lcp nz nineq neq}
    {it : Iter nz nineq neq} {Q_LU : PackedLU nz} {S : PackedLU (neq + nineq)}
    (hst : ∀ r v, s (fun i => it.z i / it.s i) r = some v → v = solve_kkt Q_LU (fun i => it.z i / it.s i) P.G P.A S r.x r.s r.z r.y) :
    (∀ it', devStep s P it = .next it' → pdStep (fun _ : Fin 1 => P) (fun _ => Q_LU) (fun _ => S) (fun _ => it) = some fun _ => it') ∧
    (devStep s P it = .notFinite → pdStep (fun _ : Fin 1 => P) (fun _ => Q_LU) (fun _ => S) (fun _ => it) = none) := by
  unfold devStep pdStep stepOf
  simp only
  cases h1 : s (fun i => it.z i / it.s i) { x := P.rx it, s := it.z, z := P.rz it, y := P.ry it } with
  | none => simp
  | some aff =>
    have e1 := hst _ _ h1
    simp only at e1
    rw [← e1]
    simp only
    cases get_step (fun _ : Fin 1 => it.z) (fun _ => aff.z) with
    | none => simp
    | some a =>
      cases get_step (fun _ : Fin 1 => it.s) (fun _ => aff.s) with
      | none => simp
      | some b =>
        simp only [Option.map_some]
        generalize hr : ({ x := 0, s := _, z := 0, y := 0 } : Iter nz nineq neq) = r2
        cases h2 : s (fun i => it.z i / it.s i) r2 with
        | none => simp
        | some cor =>
          have e2 := hst _ _ h2
          have hr1 := congrArg Iter.x hr
          have hr2 := congrArg Iter.s hr
          have hr3 := congrArg Iter.z hr
          have hr4 := congrArg Iter.y hr
          simp only at hr1 hr2 hr3 hr4
          rw [← hr1, ← hr2, ← hr3, ← hr4] at e2
          have e3 : (fun c : Fin 1 => solve_kkt Q_LU (fun i => it.z i / it.s i) P.G P.A S 0
              (fun i => (-it.mu * ((∑ i, (it.s i + min (min (a c) (b c)) 1 * aff.s i) * (it.z i + min (min (a c) (b c)) 1 * aff.z i)) /
                ∑ i, it.s i * it.z i) ^ 3 + aff.s i * aff.z i) / it.s i) 0 0) = fun _ => cor := by
            funext c
            rw [Subsingleton.elim c 0, e2]
          have e4 : ∀ c : Fin 1, solve_kkt Q_LU (fun i => it.z i / it.s i) P.G P.A S 0
              (fun i => (-it.mu * ((∑ i, (it.s i + min (min (a c) (b c)) 1 * aff.s i) * (it.z i + min (min (a c) (b c)) 1 * aff.z i)) /
                ∑ i, it.s i * it.z i) ^ 3 + aff.s i * aff.z i) / it.s i) 0 0 = cor := fun c => congrFun e3 c
          simp only [Iter.add, e4]
          cases get_step (fun _ : Fin 1 => it.z) (fun _ => aff.z + cor.z) with
          | none => simp
          | some a' =>
            cases get_step (fun _ : Fin 1 => it.s) (fun _ => aff.s + cor.s) with
            | none => simp
            | some b' =>
              simp only [Option.map_some, DevStep.next.injEq, reduceCtorEq, false_imp_iff, and_true, Option.some.injEq]
              rintro it' rfl
              funext c
              rw [Subsingleton.elim c 0]

/-- The loops return the same. -/
theorem devLoop_library [NeZero nineq] {f : Btrifact} (hf : BtrifactOk f) {s : (Fin nineq → ℝ) → Iter nz nineq neq → Option (Iter nz nineq neq)}
    {P : Lcp nz nineq neq} (hsym : P.Qᵀ = P.Q) (hs : ∀ d r v, (∀ i, 0 < d i) → s d r = some v →
      NewtonStep P.Q P.G P.A P.F d r.x r.s r.z r.y v.x v.s v.z v.y)
    {K : Kkt nz nineq neq} (hK : pre_factor_kkt f P.Q P.G P.F P.A = .ok K)
    (hd : ∀ (ds : List (Fin nineq → ℝ)) (d : Fin nineq → ℝ), (∀ i, 0 < d i) → ∃ S', factor_kkt f (factorHistory f K.R K.S_LU ds) K.R d = some S')
    (eps : ℝ) (lim : ℕ) (w : Option (Best 1 nz nineq neq)) : ∀ (k : ℕ) (ds : List (Fin nineq → ℝ)) (it : Iter nz nineq neq)
    (best : Option (Best 1 nz nineq neq)) (nNot : ℕ), (∀ i, 0 < it.s i) → (∀ i, 0 < it.z i) → devLoop s P eps lim k it best nNot = .ret w →
    pdLoop { f := f, P := fun _ : Fin 1 => P, Q_LU := fun _ => K.Q_LU, R := fun _ => K.R, eps := eps, lim := lim } k
      (fun _ => factorHistory f K.R K.S_LU ds) (fun _ => it) best nNot = .ret w := by
  intro k
  induction k with
  | zero =>
    intro ds it best nNot _ _ h
    cases best with
    | none => simp [devLoop] at h
    | some b => simpa [devLoop, pdLoop] using h
  | succ k ih =>
    intro ds it best nNot ps pz h
    obtain ⟨S, hS⟩ := hd ds (fun i => it.z i / it.s i) fun i => div_pos (pz i) (ps i)
    have hb : (batchM fun _ : Fin 1 => factor_kkt f (factorHistory f K.R K.S_LU ds) K.R fun i => it.z i / it.s i) = some fun _ => S :=
      batchM_eq_some fun _ => hS
    have hS' : factorHistory f K.R K.S_LU (ds ++ [fun i => it.z i / it.s i]) = S := by
      have := hS
      simp only [factorHistory, List.foldl_append, List.foldl_cons, List.foldl_nil] at this ⊢
      rw [this]
      rfl
    have d0 : ∀ i, 0 < it.z i / it.s i := fun i => div_pos (pz i) (ps i)
    obtain ⟨g1, g2⟩ := C45_block_lu f hf P.Q P.G P.F P.A hsym K hK ds _ S hS
    have hst : ∀ r v, s (fun i => it.z i / it.s i) r = some v → v = solve_kkt K.Q_LU (fun i => it.z i / it.s i) P.G P.A S r.x r.s r.z r.y := by
      intro r v hv
      have n1 := hs _ _ _ d0 hv
      have n2 := C44_factor_and_solve f hf P.Q P.G P.F P.A hsym K hK ds _ (fun i => (d0 i).ne') S hS r.x r.s r.z r.y
      have hdet : (schur P.Q P.G P.A P.F fun i => it.z i / it.s i).det ≠ 0 := by
        have := g2.det_ne
        rwa [flatBlocks, Matrix.det_submatrix_equiv_self] at this
      obtain ⟨a1, a2, a3, a4⟩ := C44_newton_unique _ _ _ _ _ (fun i => (d0 i).ne') g1.det_ne hdet _ _ _ _ _ _ _ _ _ _ _ _ n1 n2
      cases v
      simp only at a1 a2 a3 a4
      rw [a1, a2, a3, a4]
    obtain ⟨l1, l2⟩ := devStep_library hst
    simp only [devLoop] at h
    simp only [pdLoop, hb]
    split at h
    · rename_i hc
      rw [if_pos]
      · exact h
      · rcases hc with hc | hc | hc
        · exact .inl hc
        · refine .inr (.inl fun b => ?_)
          rw [Subsingleton.elim b 0]; exact hc
        · exact .inr (.inr fun _ => hc)
    · rename_i hc
      push Not at hc
      rw [if_neg]
      · cases hdv : devStep s P it with
        | raised => rw [hdv] at h; cases h
        | notFinite =>
          rw [hdv] at h
          rw [l2 hdv]
          exact h
        | next it' =>
          rw [hdv] at h
          have l1 := l1 it' hdv
          rw [l1]
          obtain ⟨-, -, q1, q2, -⟩ := C48_step_positive _ _ _ _ _ l1 (fun _ => ps) (fun _ => pz) 0
          rw [← hS']
          exact ih _ it' _ _ q1 q2 h
      · push Not
        refine ⟨hc.1, ⟨0, hc.2.1⟩, ⟨0, hc.2.2⟩⟩

/-- C116: without regularisation every variant that returns gives what the library's solver gives, iterate for iterate: for a positive
definite `Q`, independent equalities and a monotone `F`. -/
theorem C116_as_library [NeZero nineq] (f sp : Btrifact) (hf : BtrifactOk f) (hsp : BtrifactOk sp) (eps : ℝ) (lim maxIter : ℕ)
    (P : Lcp nz nineq neq) (hsym : P.Qᵀ = P.Q) (hpos : ∀ v, v ≠ 0 → 0 < v ⬝ᵥ (P.Q *ᵥ v)) (hA : ∀ w, P.Aᵀ *ᵥ w = 0 → w = 0)
    (hF : ∀ w, 0 ≤ w ⬝ᵥ (P.F *ᵥ w)) (k : KKTSolvers) (w : Option (Best 1 nz nineq neq))
    (h : devForward f sp 0 k eps lim maxIter P = .ret w) : lcpForward f eps lim maxIter (fun _ : Fin 1 => P) = .ret w := by
  by_cases hk : k = .LU_PARTIAL
  · subst hk; exact h
  obtain ⟨K, hK, hd⟩ := C45_monotone_never_raises f hf P.Q P.G P.F P.A hsym hpos hA hF
  obtain ⟨S, hS⟩ := hd [] (fun _ => 1) fun _ => one_pos
  have hb : (batchE fun _ : Fin 1 => pre_factor_kkt f P.Q P.G P.F P.A) = .ok fun _ => K := batchE_eq_ok fun _ => hK
  have hb2 : (batchM fun _ : Fin 1 => factor_kkt f K.S_LU K.R fun _ => 1) = some fun _ => S := batchM_eq_some fun _ => hS
  have hdev : devForward f sp 0 k eps lim maxIter P = match devInit f sp 0 k P with
      | none => .raised (.raised "RuntimeError: the KKT solver")
      | some v => devLoop (kktVariant f sp 0 k P) P eps lim maxIter { x := v.x, s := shiftPos v.s, z := shiftPos v.z, y := v.y } none 0 := by
    cases k <;> first | rfl | exact absurd rfl hk
  have hinit : devInit f sp 0 k P = kktVariant f sp 0 k P (fun _ => 1) { x := P.p, s := 0, z := -P.h, y := -P.b } := by
    cases k <;> simp [devInit, kktVariant]
  rw [hdev, hinit] at h
  cases hv : kktVariant f sp 0 k P (fun _ => 1) { x := P.p, s := 0, z := -P.h, y := -P.b } with
  | none => rw [hv] at h; cases h
  | some v =>
    rw [hv] at h
    have n1 := C116_newton f sp hf hsp P hsym (fun _ => 1) (fun _ => one_ne_zero) _ v k hv
    have n2 := C44_factor_and_solve f hf P.Q P.G P.F P.A hsym K hK [] _ (fun _ => one_ne_zero) S hS P.p 0 (-P.h) (-P.b)
    obtain ⟨g1, g2⟩ := C45_block_lu f hf P.Q P.G P.F P.A hsym K hK [] _ S hS
    have hdet : (schur P.Q P.G P.A P.F fun _ => 1).det ≠ 0 := by
      have := g2.det_ne
      rwa [flatBlocks, Matrix.det_submatrix_equiv_self] at this
    obtain ⟨a1, a2, a3, a4⟩ := C44_newton_unique _ _ _ _ _ (fun _ => one_ne_zero) g1.det_ne hdet _ _ _ _ _ _ _ _ _ _ _ _ n1 n2
    have hi : ({ x := v.x, s := shiftPos v.s, z := shiftPos v.z, y := v.y } : Iter nz nineq neq) = initIter P K.Q_LU S := by
      unfold initIter
      rw [a1, a2, a3, a4]
    have hp := C47_init_positive P K.Q_LU S
    have hS' : factorHistory f K.R K.S_LU [fun _ => 1] = S := by
      have hS : factor_kkt f K.S_LU K.R (fun _ => 1) = some S := hS
      simp [factorHistory, hS]
    simp only [lcpForward, hb, pdForward, hb2]
    simp only at h
    rw [hi] at h
    have := devLoop_library hf hsym (fun d r v hd hv => C116_newton f sp hf hsp P hsym d (fun i => (hd i).ne') r v k hv) hK hd eps lim w
      maxIter [fun _ => 1] (initIter P K.Q_LU S) none 0 hp.1 hp.2.1 h
    rw [hS'] at this
    exact this

/-- The system without regularisation is regular. -/
theorem plain_regular (P : Lcp nz nineq neq) (hpos : ∀ v, v ≠ 0 → 0 < v ⬝ᵥ (P.Q *ᵥ v)) (hA : ∀ w, P.Aᵀ *ᵥ w = 0 → w = 0)
    (hF : ∀ w, 0 ≤ w ⬝ᵥ (P.F *ᵥ w)) (d : Fin nineq → ℝ) (hd : ∀ i, 0 < d i) :
    ((⟨P.Q, Matrix.diagonal d, P.G, P.A, P.F⟩ : RegKkt nz nineq neq).reg 0).det ≠ 0 := by
  set M : RegKkt nz nineq neq := ⟨P.Q, Matrix.diagonal d, P.G, P.A, P.F⟩ with hM
  intro h0
  obtain ⟨u, hu, hu0⟩ := Matrix.exists_mulVec_eq_zero_iff.2 h0
  have e : M.reg 0 = M.plain 0 := by simp [RegKkt.reg, RegKkt.plain]
  obtain ⟨v, hfl⟩ := exists_flat4 u
  have hz : M.resid 0 v { x := 0, s := 0, z := 0, y := 0 } = { x := 0, s := 0, z := 0, y := 0 } := by
    apply pack_inj
    rw [RegKkt.resid_pack, hfl, ← e, hu0, zero_add]
  rw [RegKkt.resid_eq] at hz
  have a1 := congrArg Iter.x hz
  have a2 := congrArg Iter.s hz
  have a3 := congrArg Iter.z hz
  have a4 := congrArg Iter.y hz
  simp [kktRes, hM] at a1 a2 a3 a4
  have b1 : P.Q *ᵥ v.x + P.Gᵀ *ᵥ v.z + P.Aᵀ *ᵥ v.y = 0 := a1
  have b2 : ∀ i, v.z i = -(d i * v.s i) := fun i => by
    have := congrFun a2 i
    simp only [Matrix.mulVec_diagonal, Pi.zero_apply] at this
    linarith
  have b3 : P.G *ᵥ v.x = P.F *ᵥ v.z - v.s := by
    funext i
    have := congrFun a3 i
    simp only [Pi.zero_apply] at this
    simp only [Pi.sub_apply]
    linarith
  have b4 : P.A *ᵥ v.x = 0 := a4
  have g1 : v.x ⬝ᵥ (P.Gᵀ *ᵥ v.z) = v.z ⬝ᵥ (P.G *ᵥ v.x) := by
    rw [Matrix.mulVec_transpose, dotProduct_comm, ← Matrix.dotProduct_mulVec]
  have g2 : v.x ⬝ᵥ (P.Aᵀ *ᵥ v.y) = v.y ⬝ᵥ (P.A *ᵥ v.x) := by
    rw [Matrix.mulVec_transpose, dotProduct_comm, ← Matrix.dotProduct_mulVec]
  have h1 : v.x ⬝ᵥ (P.Q *ᵥ v.x) + v.z ⬝ᵥ (P.F *ᵥ v.z) + ∑ i, d i * v.s i ^ 2 = 0 := by
    have h := congrArg (fun t => v.x ⬝ᵥ t) b1
    simp only [dotProduct_add, dotProduct_zero, g1, g2, b3, b4, dotProduct_sub, dotProduct_zero, add_zero] at h
    have hzs : v.z ⬝ᵥ v.s = -∑ i, d i * v.s i ^ 2 := by
      rw [dotProduct, ← Finset.sum_neg_distrib]
      exact Finset.sum_congr rfl fun i _ => by rw [b2 i]; ring
    rw [hzs] at h
    linarith
  have h3 : ∀ i ∈ Finset.univ, 0 ≤ d i * v.s i ^ 2 := fun i _ => mul_nonneg (hd i).le (sq_nonneg _)
  have hq : 0 ≤ v.x ⬝ᵥ (P.Q *ᵥ v.x) := by
    by_cases hx : v.x = 0
    · rw [hx]; simp
    · exact (hpos _ hx).le
  have h4 : ∑ i, d i * v.s i ^ 2 = 0 := by
    have := Finset.sum_nonneg h3
    linarith [hF v.z]
  have hs : ∀ i, v.s i = 0 := fun i => by
    have := (Finset.sum_eq_zero_iff_of_nonneg h3).1 h4 i (Finset.mem_univ i)
    rcases mul_eq_zero.1 this with h | h
    · exact absurd h (hd i).ne'
    · exact pow_eq_zero_iff (two_ne_zero) |>.1 h
  have hx : v.x = 0 := by
    by_contra hne
    have := hpos _ hne
    have := Finset.sum_nonneg h3
    linarith [hF v.z]
  have hz0 : v.z = 0 := funext fun i => by rw [b2 i, hs i]; simp
  have hy : v.y = 0 := hA _ (by simpa [hx, hz0] using b1)
  apply hu
  rw [← hfl, ← flat4_zero]
  congr 1
  exact Iter.ext hx (funext hs) hz0 hy

/-- C116: with positive definite `Q`, independent equalities and monotone `F` these variants return without regularisation too, and so
does the library, with the same iterate. -/
theorem C116_plain_return [NeZero nineq] (f sp : Btrifact) (hf : BtrifactOk f) (hsp : BtrifactOk sp) (eps : ℝ) (lim maxIter : ℕ)
    (hm : maxIter ≠ 0) (P : Lcp nz nineq neq) (hsym : P.Qᵀ = P.Q) (hpos : ∀ v, v ≠ 0 → 0 < v ⬝ᵥ (P.Q *ᵥ v))
    (hA : ∀ w, P.Aᵀ *ᵥ w = 0 → w = 0) (hF : ∀ w, 0 ≤ w ⬝ᵥ (P.F *ᵥ w)) (k : KKTSolvers)
    (hk : k = .LU_FULL ∨ k = .IR_UNOPT ∨ k = .IR_INVERSE) :
    ∃ w, devForward f sp 0 k eps lim maxIter P = .ret (some w) ∧ lcpForward f eps lim maxIter (fun _ : Fin 1 => P) = .ret (some w) := by
  have hsolve : ∀ d r, (∀ i, 0 < d i) → (kktVariant f sp 0 k P d r).isSome := by
    intro d r hd
    have hr := plain_regular P hpos hA hF d hd
    have hH : (blockH (P.Q + (0 : ℝ) • 1) (Matrix.diagonal d + (0 : ℝ) • 1)).det ≠ 0 := by
      intro h0
      obtain ⟨u, hu, hu0⟩ := Matrix.exists_mulVec_eq_zero_iff.2 h0
      rw [zero_smul, add_zero, zero_smul, add_zero, ← addCases_eta u, blockH, catBlocks_rect_mulVec] at hu0
      set a := fun i => u (Fin.castAdd nineq i) with ha
      set b := fun i => u (Fin.natAdd nz i) with hb
      have ha0 : P.Q *ᵥ a = 0 := by
        funext i
        have := congrFun hu0 (Fin.castAdd nineq i)
        simpa using this
      have hb0 : ∀ i, d i * b i = 0 := by
        intro i
        have := congrFun hu0 (Fin.natAdd nz i)
        simpa [Matrix.mulVec_diagonal] using this
      apply hu
      rw [← addCases_eta u]
      funext i
      induction i using Fin.addCases with
      | left i =>
        have : a = 0 := by
          by_contra hne
          have := hpos a hne
          rw [ha0, dotProduct_zero] at this
          exact lt_irrefl _ this
        simpa using congrFun this i
      | right i =>
        have := (mul_eq_zero.1 (hb0 i)).resolve_left (hd i).ne'
        simpa using this
    have tot : ∀ r, ∃ v, RegKkt.solve f ⟨P.Q, Matrix.diagonal d, P.G, P.A, P.F⟩ 0 r = some v := by
      intro r
      refine factor_total hf hH ?_ r
      rw [neg_neg]
      exact hr
    have hir : (solve_kkt_ir f ⟨P.Q, Matrix.diagonal d, P.G, P.A, P.F⟩ 0 r 1).isSome := by
      obtain ⟨v0, h0⟩ := tot r
      obtain ⟨v1, h1⟩ := tot (RegKkt.resid ⟨P.Q, Matrix.diagonal d, P.G, P.A, P.F⟩ 0 v0 r).neg
      simp [solve_kkt_ir, refineLoop, h0, h1]
    rcases hk with rfl | rfl | rfl
    · rw [C116_full_step]
      obtain ⟨v0, h0⟩ := tot r
      simp [solve_kkt_ir, refineLoop, h0]
    · exact hir
    · obtain ⟨v, hv⟩ := Option.isSome_iff_exists.1 hir
      have : kktVariant f sp 0 .IR_INVERSE P d r = some v := C116_one_sweep f hf _ 0 r v hv
      rw [this]; rfl
  have hinit : devInit f sp 0 k P = kktVariant f sp 0 k P (fun _ => 1) { x := P.p, s := 0, z := -P.h, y := -P.b } := by
    rcases hk with rfl | rfl | rfl <;> rfl
  obtain ⟨v, hv⟩ := Option.isSome_iff_exists.1 (hsolve (fun _ => 1) { x := P.p, s := 0, z := -P.h, y := -P.b } fun _ => one_pos)
  have hfwd : devForward f sp 0 k eps lim maxIter P = devLoop (kktVariant f sp 0 k P) P eps lim maxIter
      { x := v.x, s := shiftPos v.s, z := shiftPos v.z, y := v.y } none 0 := by
    rcases hk with rfl | rfl | rfl <;> simp only [devForward, hinit, hv]
  obtain ⟨w, hw⟩ := devLoop_returns P hsolve eps lim maxIter { x := v.x, s := shiftPos v.s, z := shiftPos v.z, y := v.y }
    (fun i => (shiftPos_pos v.s i).1) (fun i => (shiftPos_pos v.z i).1) none 0 (Or.inl hm)
  rw [← hfwd] at hw
  exact ⟨w, hw, C116_as_library f sp hf hsp eps lim maxIter P hsym hpos hA hF k _ hw⟩

/-- Both theorems on a problem with an inequality and an equality. -/
example : ∃ w, devForward someBtrifact someBtrifact 0 .LU_FULL (1 / 10 ^ 12) 3 20 devUnit = .ret (some w) ∧
    lcpForward someBtrifact (1 / 10 ^ 12) 3 20 (fun _ : Fin 1 => devUnit) = .ret (some w) := by
  refine C116_plain_return _ _ someBtrifact_ok someBtrifact_ok _ _ _ (by norm_num) devUnit (by simp [devUnit]) ?_ ?_ devUnit_psd.2 _ (.inl rfl)
  · intro v hv
    have h0 : v 0 ≠ 0 := fun h => hv (by funext i; fin_cases i; simpa using h)
    simp only [devUnit, Matrix.one_mulVec, dotProduct, Fin.sum_univ_one]
    exact mul_self_pos.2 h0
  · intro w hw
    simpa [devUnit] using hw

end LcpPhysics
