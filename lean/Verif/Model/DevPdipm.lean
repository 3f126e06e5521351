import Verif.Model.Refine

/-!
# Model of `lcp_physics/lcp/solvers/dev_pdipm.py`

The development version of the solver with seven ways of solving the KKT system.  The file cannot be
imported as it stands: line 11 imports `binverse` from `lcp_physics.physics.utils`, which defines no
such function.  It is modelled with `binverse` the inverse of a batch of matrices.  One batch element:
for a larger batch the mask of dev_pdipm.py:173-179 has the wrong shape and the sparse variants drop
the batch dimension.  `kkt_resid_reg`, `solve_kkt_ir`, `factor_solve_kkt_reg`, `factor_solve_kkt`,
`get_step`, `pre_factor_kkt`, `factor_kkt` and `solve_kkt` are those of pdipm.py (dev_pdipm.py:347-351,
366-455, 682-712, 756-882) and are taken from there.  `f` is the dense factorisation (`btrifact`,
`lu_factor`), `sp` the sparse one (`splu`).
-/

noncomputable section

namespace LcpPhysics

open Matrix

variable {nz nineq neq : ℕ}

/-- dev_pdipm.py:51-58 `KKTSolvers`. -/
inductive KKTSolvers where
  | LU_FULL | SP_LU_FULL | LU_PARTIAL | IR_UNOPT | SP_IR_UNOPT | IR_INVERSE | SP_IR_INVERSE

open Classical in
/-- dev_pdipm.py:11, 618 `binverse`: the inverse; a singular matrix raises. -/
def binverse {n : ℕ} (X : Matrix (Fin n) (Fin n) ℝ) : Option (Matrix (Fin n) (Fin n) ℝ) :=
  if X.det = 0 then none else some X⁻¹

/-- dev_pdipm.py:616-617: `full_mat` from `H_`, `A_` and `C_tilde`. -/
def fullMat {n m : ℕ} (H_ : Matrix (Fin n) (Fin n) ℝ) (A_ : Matrix (Fin m) (Fin n) ℝ)
    (C_tilde : Matrix (Fin m) (Fin m) ℝ) : Matrix (Fin (n + m)) (Fin (n + m)) ℝ :=
  catBlocks H_ A_ᵀ A_ C_tilde

/-- dev_pdipm.py:598-627 `solve_kkt_inverse` (`eps` is not used there). -/
def solve_kkt_inverse (Q_tilde : Matrix (Fin nz) (Fin nz) ℝ) (D : Matrix (Fin nineq) (Fin nineq) ℝ)
    (G : Matrix (Fin nineq) (Fin nz) ℝ) (A : Matrix (Fin neq) (Fin nz) ℝ)
    (C_tilde : Matrix (Fin (nineq + neq)) (Fin (nineq + neq)) ℝ) (r : Iter nz nineq neq) :
    Option (Iter nz nineq neq) :=
  let g_ : Fin (nz + nineq) → ℝ := Fin.addCases r.x r.s
  let h_ : Fin (nineq + neq) → ℝ := Fin.addCases r.z r.y
  let full_res : Fin (nz + nineq + (nineq + neq)) → ℝ := Fin.addCases g_ h_
  (binverse (fullMat (blockH Q_tilde D) (blockA G A) C_tilde)).map fun inv =>
    let sol := inv *ᵥ full_res
    { x := fun i => sol (Fin.castAdd (nineq + neq) (Fin.castAdd nineq i))
      s := fun i => sol (Fin.castAdd (nineq + neq) (Fin.natAdd nz i))
      z := fun i => sol (Fin.natAdd (nz + nineq) (Fin.castAdd neq i))
      y := fun i => sol (Fin.natAdd (nz + nineq) (Fin.natAdd nineq i)) }

/-- dev_pdipm.py:571-573, 582-583: the solve of `solve_kkt_ir_inverse`. -/
def RegKkt.solveInverse (M : RegKkt nz nineq neq) (eps : ℝ) (r : Iter nz nineq neq) :
    Option (Iter nz nineq neq) :=
  solve_kkt_inverse (M.Q + eps • 1) (M.D + eps • 1) M.G M.A (regC eps M.F) r

/-- The refinement loop shared by dev_pdipm.py:507-516 and 584-593: `solve` for minus the residuals,
add. -/
def refineWith (solve : Iter nz nineq neq → Option (Iter nz nineq neq)) (M : RegKkt nz nineq neq) (eps : ℝ)
    (r : Iter nz nineq neq) : ℕ → Iter nz nineq neq → Option (Iter nz nineq neq)
  | 0, v => some v
  | k + 1, v => (solve (M.resid eps v r).neg).bind fun dv => refineWith solve M eps r k (v.add dv)

/-- dev_pdipm.py:566-595 `solve_kkt_ir_inverse` (`niter` defaults to 1). -/
def solve_kkt_ir_inverse (M : RegKkt nz nineq neq) (eps : ℝ) (r : Iter nz nineq neq) (niter : ℕ) :
    Option (Iter nz nineq neq) :=
  (M.solveInverse eps r).bind fun v => refineWith (M.solveInverse eps) M eps r niter v

/-- dev_pdipm.py:488-490, 502-504, 521-563: the solve of `sparse_solve_kkt_ir`.  The lower block of
`H_` is `D`, not `D_tilde`.  `H_` is factorised by `sp`, the Schur complement by `f`; both are given to
`factorSolveBlocks` as one factorisation. -/
def RegKkt.solveSparse (f : Btrifact) (M : RegKkt nz nineq neq) (eps : ℝ) (r : Iter nz nineq neq) :
    Option (Iter nz nineq neq) :=
  factorSolveBlocks f (blockH (M.Q + eps • 1) M.D) (blockA M.G M.A) (-(regC eps M.F)) r

/-- dev_pdipm.py:473-518 `sparse_solve_kkt_ir` (`niter` defaults to 1); `sparse_kkt_resid_reg` (458-470)
is `kkt_resid_reg`. -/
def sparse_solve_kkt_ir (f : Btrifact) (M : RegKkt nz nineq neq) (eps : ℝ) (r : Iter nz nineq neq) (niter : ℕ) :
    Option (Iter nz nineq neq) :=
  (M.solveSparse f eps r).bind fun v => refineWith (M.solveSparse f eps) M eps r niter v

/-- dev_pdipm.py:79-81, 105-107: `C_tilde` of the two full factorisations. -/
def fullC (eps : ℝ) (F : Matrix (Fin nineq) (Fin nineq) ℝ) :
    Matrix (Fin (nineq + neq)) (Fin (nineq + neq)) ℝ :=
  eps • 1 + catBlocks F 0 0 0

/-- dev_pdipm.py:715-753 `sparse_factor_solve_kkt`: the steps of `factor_solve_kkt` with sparse
factorisations. -/
def sparse_factor_solve_kkt (sp : Btrifact) (Q_tilde : Matrix (Fin nz) (Fin nz) ℝ)
    (D_tilde : Matrix (Fin nineq) (Fin nineq) ℝ) (A_ : Matrix (Fin (nineq + neq)) (Fin (nz + nineq)) ℝ)
    (C_tilde : Matrix (Fin (nineq + neq)) (Fin (nineq + neq)) ℝ) (r : Iter nz nineq neq) :
    Option (Iter nz nineq neq) :=
  factorSolveBlocks sp (blockH Q_tilde D_tilde) A_ C_tilde r

/-- dev_pdipm.py:67-163 and 237-274, 296-333: the step of one variant, `D` diagonal with the entries `d`.
`none` if it raises.  Without equalities `SP_LU_FULL` raises (line 102 stacks a tensor with three
dimensions).  `SP_IR_INVERSE` raises always: `kkt_resid_reg` calls `bmm` on a `csc_matrix` (line 639).
`LU_PARTIAL` starts here from a fresh `pre_factor_kkt`; the code reuses the factors of the pass
before. -/
def kktVariant (f sp : Btrifact) (eps : ℝ) (k : KKTSolvers) (P : Lcp nz nineq neq) (d : Fin nineq → ℝ)
    (r : Iter nz nineq neq) : Option (Iter nz nineq neq) :=
  let M : RegKkt nz nineq neq := { Q := P.Q, D := Matrix.diagonal d, G := P.G, A := P.A, F := P.F }
  match k with
  | .LU_FULL => factor_solve_kkt f (M.Q + eps • 1) (M.D + eps • 1) (blockA M.G M.A) (fullC eps M.F) r
  | .SP_LU_FULL =>
    if neq = 0 then none
    else sparse_factor_solve_kkt sp (M.Q + eps • 1) (M.D + eps • 1) (blockA M.G M.A) (fullC eps M.F) r
  | .LU_PARTIAL => (pre_factor_kkt f P.Q P.G P.F P.A).toOption.bind fun K =>
      (factor_kkt f K.S_LU K.R d).map fun S_LU => solve_kkt K.Q_LU d P.G P.A S_LU r.x r.s r.z r.y
  | .IR_UNOPT => solve_kkt_ir f M eps r 1
  | .SP_IR_UNOPT => sparse_solve_kkt_ir sp M eps r 1
  | .IR_INVERSE => solve_kkt_ir_inverse M eps r 1
  | .SP_IR_INVERSE => none

/-- dev_pdipm.py:67-163: the starting point before the shift.  `D` is the identity; `SP_LU_FULL` takes
`D * (1 + reg_eps)` for `D_tilde` (line 94). -/
def devInit (f sp : Btrifact) (eps : ℝ) (k : KKTSolvers) (P : Lcp nz nineq neq) : Option (Iter nz nineq neq) :=
  let r : Iter nz nineq neq := { x := P.p, s := 0, z := -P.h, y := -P.b }
  match k with
  | .SP_LU_FULL =>
    if neq = 0 then none
    else sparse_factor_solve_kkt sp (P.Q + eps • 1) ((1 + eps) • 1) (blockA P.G P.A) (fullC eps P.F) r
  | k => kktVariant f sp eps k P (fun _ => 1) r

/-- `get_step` of one row, dev_pdipm.py:347-351. -/
def stepOf {n : ℕ} [NeZero n] (v dv : Fin n → ℝ) : Option ℝ :=
  (get_step (fun _ : Fin 1 => v) fun _ => dv).map fun st => st 0

/-- What one pass of the loop does to the iterate. -/
inductive DevStep (nz nineq neq : ℕ) where
  | next (it : Iter nz nineq neq)
  | notFinite
  | raised

/-- dev_pdipm.py:198, 237-338: one predictor-corrector step with the step solver `solve`. -/
def devStep [NeZero nineq] (solve : (Fin nineq → ℝ) → Iter nz nineq neq → Option (Iter nz nineq neq))
    (P : Lcp nz nineq neq) (it : Iter nz nineq neq) : DevStep nz nineq neq :=
  let d : Fin nineq → ℝ := fun i => it.z i / it.s i
  match solve d { x := P.rx it, s := it.z, z := P.rz it, y := P.ry it } with
  | none => .raised
  | some aff =>
    match stepOf it.z aff.z, stepOf it.s aff.s with
    | some stz, some sts =>
      let alpha := min (min stz sts) 1
      let t3 := ∑ i, (it.s i + alpha * aff.s i) * (it.z i + alpha * aff.z i)
      let t4 := ∑ i, it.s i * it.z i
      let sig := (t3 / t4) ^ 3
      let rs : Fin nineq → ℝ := fun i => (-it.mu * sig + aff.s i * aff.z i) / it.s i
      match solve d { x := 0, s := rs, z := 0, y := 0 } with
      | none => .raised
      | some cor =>
        let dv := aff.add cor
        match stepOf it.z dv.z, stepOf it.s dv.s with
        | some stz, some sts =>
          let alpha := min (999 / 1000 * min stz sts) 1
          .next { x := it.x + alpha • dv.x, s := it.s + alpha • dv.s, z := it.z + alpha • dv.z
                  y := it.y + alpha • dv.y }
        | _, _ => .notFinite
    | _, _ => .notFinite

open Classical in
/-- dev_pdipm.py:184-344 for the variants other than `LU_PARTIAL`: `k` remaining passes. -/
def devLoop [NeZero nineq] (solve : (Fin nineq → ℝ) → Iter nz nineq neq → Option (Iter nz nineq neq))
    (P : Lcp nz nineq neq) (eps : ℝ) (lim : ℕ) :
    ℕ → Iter nz nineq neq → Option (Best 1 nz nineq neq) → ℕ → Outcome 1 nz nineq neq
  | 0, _, none, _ => .raised (.raised "AttributeError: 'NoneType' object has no attribute 'max'")
  | 0, _, some w, _ => .ret (some w)
  | k + 1, it, best, nNot =>
    let r := updateBest (fun _ => P.resid it) (fun _ => it) best nNot
    if r.2 = lim ∨ r.1.resids 0 < eps ∨ it.mu > 10 ^ 100 then .ret (some r.1)
    else match devStep solve P it with
      | .raised => .raised (.raised "RuntimeError: the KKT solver")
      | .notFinite => .ret (some r.1)
      | .next it' => devLoop solve P eps lim k it' (some r.1) r.2

/-- dev_pdipm.py:61-344 `forward`, after `pre_factor_kkt`; `reg` is `reg_eps`, `1e-7` in the code.
`LU_PARTIAL` is `forward` of pdipm.py, which runs the same steps. -/
def devForward [NeZero nineq] (f sp : Btrifact) (reg : ℝ) (k : KKTSolvers) (eps : ℝ) (lim maxIter : ℕ)
    (P : Lcp nz nineq neq) : Outcome 1 nz nineq neq :=
  match k with
  | .LU_PARTIAL => lcpForward f eps lim maxIter fun _ => P
  | k =>
    match devInit f sp reg k P with
    | none => .raised (.raised "RuntimeError: the KKT solver")
    | some v => devLoop (kktVariant f sp reg k P) P eps lim maxIter
        { x := v.x, s := shiftPos v.s, z := shiftPos v.z, y := v.y } none 0

end LcpPhysics
