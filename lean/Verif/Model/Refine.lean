import Verif.Model.Pdipm

/-!
# Model of the regularised KKT solvers in `lcp_physics/lcp/solvers/pdipm.py`

`kkt_resid_reg`, `solve_kkt_ir`, `factor_solve_kkt_reg` and `factor_solve_kkt`, one batch element.
Iterates `Iter` hold `dx, ds, dz, dy` and also the four residuals.  `None` for `dy` when `neq = 0` is
the empty vector.  The regularisation `eps` is a parameter (the code fixes `1e-7`).
-/

noncomputable section

namespace LcpPhysics

open Matrix

variable {nz nineq neq : ℕ}

/-- pdipm.py:201-213 `kkt_resid_reg`; the residuals `resx, ress, resz, resy`. -/
def kkt_resid_reg (Q_tilde : Matrix (Fin nz) (Fin nz) ℝ) (D_tilde : Matrix (Fin nineq) (Fin nineq) ℝ)
    (G : Matrix (Fin nineq) (Fin nz) ℝ) (A : Matrix (Fin neq) (Fin nz) ℝ)
    (F_tilde : Matrix (Fin nineq) (Fin nineq) ℝ) (eps : ℝ) (v : Iter nz nineq neq)
    (r : Iter nz nineq neq) : Iter nz nineq neq :=
  { x := Q_tilde *ᵥ v.x + Gᵀ *ᵥ v.z + r.x + Aᵀ *ᵥ v.y
    s := D_tilde *ᵥ v.s + v.z + r.s
    z := G *ᵥ v.x + v.s + F_tilde *ᵥ v.z + r.z
    y := A *ᵥ v.x - eps • v.y + r.y }

/-- pdipm.py:250-252, 295-297: `H_`, zero but for the two diagonal blocks. -/
def blockH (Q_tilde : Matrix (Fin nz) (Fin nz) ℝ) (D : Matrix (Fin nineq) (Fin nineq) ℝ) :
    Matrix (Fin (nz + nineq)) (Fin (nz + nineq)) ℝ :=
  catBlocks Q_tilde 0 0 D

/-- pdipm.py:253-263: `A_ = [[G, I], [A, 0]]`. -/
def blockA (G : Matrix (Fin nineq) (Fin nz) ℝ) (A : Matrix (Fin neq) (Fin nz) ℝ) :
    Matrix (Fin (nineq + neq)) (Fin (nz + nineq)) ℝ :=
  Matrix.of fun i j => Fin.addCases
    (fun i => Fin.addCases (fun j => G i j) (fun j => (1 : Matrix (Fin nineq) (Fin nineq) ℝ) i j) j)
    (fun i => Fin.addCases (fun j => A i j) (fun _ => 0) j) i

/-- pdipm.py:250-289 and 295-322 after the blocks are assembled: eliminate `v`, solve for `w`, substitute
back; `S` is the matrix added to `A_ H_⁻¹ A_ᵀ`. -/
def factorSolveBlocks (f : Btrifact) (H_ : Matrix (Fin (nz + nineq)) (Fin (nz + nineq)) ℝ)
    (A_ : Matrix (Fin (nineq + neq)) (Fin (nz + nineq)) ℝ)
    (S : Matrix (Fin (nineq + neq)) (Fin (nineq + neq)) ℝ) (r : Iter nz nineq neq) :
    Option (Iter nz nineq neq) :=
  let g_ : Fin (nz + nineq) → ℝ := Fin.addCases r.x r.s
  let h_ : Fin (nineq + neq) → ℝ := Fin.addCases r.z r.y
  (f (nz + nineq) H_).bind fun H_LU =>
    let invH_A_ := btrisolve H_LU A_ᵀ
    let invH_g_ := btrisolveV H_LU g_
    (f (nineq + neq) (A_ * invH_A_ + S)).map fun S_LU =>
      let t_ := invH_g_ ᵥ* A_ᵀ - h_
      let w_ := -btrisolveV S_LU t_
      let t_ := -g_ - w_ ᵥ* A_
      let v_ := btrisolveV H_LU t_
      { x := fun i => v_ (Fin.castAdd nineq i)
        s := fun i => v_ (Fin.natAdd nz i)
        z := fun i => w_ (Fin.castAdd neq i)
        y := fun i => w_ (Fin.natAdd nineq i) }

/-- pdipm.py:247-289 `factor_solve_kkt_reg`; `none` if a factorisation raises.  (`eps` is not used
there.) -/
def factor_solve_kkt_reg (f : Btrifact) (Q_tilde : Matrix (Fin nz) (Fin nz) ℝ)
    (D : Matrix (Fin nineq) (Fin nineq) ℝ) (G : Matrix (Fin nineq) (Fin nz) ℝ) (A : Matrix (Fin neq) (Fin nz) ℝ)
    (C_tilde : Matrix (Fin (nineq + neq)) (Fin (nineq + neq)) ℝ) (r : Iter nz nineq neq) :
    Option (Iter nz nineq neq) :=
  factorSolveBlocks f (blockH Q_tilde D) (blockA G A) (-C_tilde) r

/-- pdipm.py:292-322 `factor_solve_kkt`; here `C_tilde` is added. -/
def factor_solve_kkt (f : Btrifact) (Q_tilde : Matrix (Fin nz) (Fin nz) ℝ)
    (D_tilde : Matrix (Fin nineq) (Fin nineq) ℝ) (A_ : Matrix (Fin (nineq + neq)) (Fin (nz + nineq)) ℝ)
    (C_tilde : Matrix (Fin (nineq + neq)) (Fin (nineq + neq)) ℝ) (r : Iter nz nineq neq) :
    Option (Iter nz nineq neq) :=
  factorSolveBlocks f (blockH Q_tilde D_tilde) A_ C_tilde r

/-- pdipm.py:225-227: `C_tilde`, `-eps I` with `F` subtracted from the leading block. -/
def regC (eps : ℝ) (F : Matrix (Fin nineq) (Fin nineq) ℝ) :
    Matrix (Fin (nineq + neq)) (Fin (nineq + neq)) ℝ :=
  -eps • 1 - catBlocks F 0 0 0

/-- Componentwise sum, pdipm.py:238-239. -/
def Iter.add (v w : Iter nz nineq neq) : Iter nz nineq neq :=
  { x := v.x + w.x, s := v.s + w.s, z := v.z + w.z, y := v.y + w.y }

/-- Componentwise negation, pdipm.py:235-236. -/
def Iter.neg (v : Iter nz nineq neq) : Iter nz nineq neq :=
  { x := -v.x, s := -v.s, z := -v.z, y := -v.y }

/-- Arguments of `solve_kkt_ir` other than the right hand side. -/
structure RegKkt (nz nineq neq : ℕ) where
  Q : Matrix (Fin nz) (Fin nz) ℝ
  D : Matrix (Fin nineq) (Fin nineq) ℝ
  G : Matrix (Fin nineq) (Fin nz) ℝ
  A : Matrix (Fin neq) (Fin nz) ℝ
  F : Matrix (Fin nineq) (Fin nineq) ℝ

/-- pdipm.py:222-223, 230-231: the solver with the regularised matrices. -/
def RegKkt.solve (f : Btrifact) (M : RegKkt nz nineq neq) (eps : ℝ) (r : Iter nz nineq neq) :
    Option (Iter nz nineq neq) :=
  factor_solve_kkt_reg f (M.Q + eps • 1) (M.D + eps • 1) M.G M.A (regC eps M.F) r

/-- pdipm.py:228, 232-233: the residuals; `F_tilde` is the leading block of `C_tilde`. -/
def RegKkt.resid (M : RegKkt nz nineq neq) (eps : ℝ) (v r : Iter nz nineq neq) : Iter nz nineq neq :=
  kkt_resid_reg M.Q M.D M.G M.A
    ((regC (neq := neq) eps M.F).submatrix (Fin.castAdd neq) (Fin.castAdd neq)) eps v r

/-- pdipm.py:234-242: the refinement loop. -/
def refineLoop (f : Btrifact) (M : RegKkt nz nineq neq) (eps : ℝ) (r : Iter nz nineq neq) :
    ℕ → Iter nz nineq neq → Option (Iter nz nineq neq)
  | 0, v => some v
  | k + 1, v =>
    (M.solve f eps (M.resid eps v r).neg).bind fun dv => refineLoop f M eps r k (v.add dv)

/-- pdipm.py:216-244 `solve_kkt_ir` (`niter` defaults to 1). -/
def solve_kkt_ir (f : Btrifact) (M : RegKkt nz nineq neq) (eps : ℝ) (r : Iter nz nineq neq) (niter : ℕ) :
    Option (Iter nz nineq neq) :=
  (M.solve f eps r).bind fun v => refineLoop f M eps r niter v

end LcpPhysics
