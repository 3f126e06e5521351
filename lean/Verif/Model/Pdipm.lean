import Verif.Model.LcpUtil
import Verif.Model.Bodies
import Mathlib.Analysis.Real.Sqrt

/-!
# Model of `lcp_physics/lcp/solvers/pdipm.py` and `lcp_physics/lcp/lcp.py`

Batched tensors are families over `Fin B`.  `None` for the equality multipliers when `neq = 0` is the
empty vector.  The code runs on the CPU, so the pivoting branch of `factor_kkt` is always taken.
`nineq ≥ 1` (`NeZero`): for `nineq = 0` `torch.min(s, 1)` raises.  Printing is left out.
-/

noncomputable section

namespace LcpPhysics

open Matrix

/-- One batch element of the arguments `Q p G h A b F`. -/
structure Lcp (nz nineq neq : ℕ) where
  Q : Matrix (Fin nz) (Fin nz) ℝ
  p : Fin nz → ℝ
  G : Matrix (Fin nineq) (Fin nz) ℝ
  h : Fin nineq → ℝ
  A : Matrix (Fin neq) (Fin nz) ℝ
  b : Fin neq → ℝ
  F : Matrix (Fin nineq) (Fin nineq) ℝ

/-- One batch element of `x, s, z, y` (also of the directions `dx, ds, dz, dy`). -/
@[ext] structure Iter (nz nineq neq : ℕ) where
  x : Fin nz → ℝ
  s : Fin nineq → ℝ
  z : Fin nineq → ℝ
  y : Fin neq → ℝ

/-- `torch.cat` of four blocks. -/
def catBlocks {a b : ℕ} (A : Matrix (Fin a) (Fin a) ℝ) (B : Matrix (Fin a) (Fin b) ℝ)
    (C : Matrix (Fin b) (Fin a) ℝ) (D : Matrix (Fin b) (Fin b) ℝ) :
    Matrix (Fin (a + b)) (Fin (a + b)) ℝ :=
  Matrix.of fun i j => Fin.addCases (fun i => Fin.addCases (fun j => A i j) (fun j => B i j) j)
    (fun i => Fin.addCases (fun j => C i j) (fun j => D i j) j) i

/-- The results of `pre_factor_kkt`: `Q_LU`, `S_LU`, `R`. -/
structure Kkt (nz nineq neq : ℕ) where
  Q_LU : PackedLU nz
  S_LU : PackedLU (neq + nineq)
  R : Matrix (Fin nineq) (Fin nineq) ℝ

/-- pdipm.py:357-408 `pre_factor_kkt`, one batch element. -/
def pre_factor_kkt {nz nineq neq : ℕ} (f : Btrifact) (Q : Matrix (Fin nz) (Fin nz) ℝ)
    (G : Matrix (Fin nineq) (Fin nz) ℝ) (F : Matrix (Fin nineq) (Fin nineq) ℝ)
    (A : Matrix (Fin neq) (Fin nz) ℝ) : Except Err (Kkt nz nineq neq) :=
  match f nz Q with
  | none => .error (.raised "RuntimeError: Cannot perform LU factorization on Q")
  | some Q_LU =>
    let G_invQ_GT := G * btrisolve Q_LU Gᵀ + F
    let R := G_invQ_GT
    let S_LU_pivots : Fin (neq + nineq) → ℕ := fun k => k + 1
    if neq > 0 then
      let invQ_AT := btrisolve Q_LU Aᵀ
      let A_invQ_AT := A * invQ_AT
      let G_invQ_AT := G * invQ_AT
      match f neq A_invQ_AT with
      | none => .error (.raised "RuntimeError: getrf")
      | some LU =>
        let P := unpackP LU.piv
        let L := unpackL LU.data
        let U := unpackU LU.data
        let U_inv := btrisolve LU (P * L)
        let S_LU_21 := G_invQ_AT * U_inv
        let T := btrisolve LU G_invQ_ATᵀ
        let S_LU_12 := U * T
        .ok {
          Q_LU := Q_LU
          S_LU := {
            data := catBlocks LU.data S_LU_12 S_LU_21 0
            piv := Fin.addCases LU.piv fun k => S_LU_pivots (Fin.natAdd neq k) }
          R := R - G_invQ_AT * T }
    else .ok { Q_LU := Q_LU, S_LU := { data := 0, piv := S_LU_pivots }, R := R }

/-- pdipm.py:421-430: `torch.zeros_like(R)` with `v.view(-1)` scattered into a batch of identity
masks, flattened row-major. -/
def scatterDiag {B n : ℕ} (v : Fin B → Fin n → ℝ) : Option (List ℝ) :=
  let eye : List Bool := (List.finRange B).flatMap fun _ =>
    (List.finRange n).flatMap fun i => (List.finRange n).map fun j => decide (i = j)
  maskedScatter eye (List.replicate (B * (n * n)) 0) (flatten v)

/-- pdipm.py:414-454 `factor_kkt`, one batch element: the new `S_LU`, or `none` if the
factorisation raises (before `S_LU` is modified).  `factor_kkt_eye` has always the wrong size, so
it is rebuilt on each call.  Scattering `1 / d` into the batch of identity masks (`scatterDiag`)
is written as a diagonal matrix; `C54_batched_diagonal` shows that they agree. -/
def factor_kkt {nineq neq : ℕ} (f : Btrifact) (S_LU : PackedLU (neq + nineq))
    (R : Matrix (Fin nineq) (Fin nineq) ℝ) (d : Fin nineq → ℝ) : Option (PackedLU (neq + nineq)) :=
  let T := Matrix.diagonal (fun i => 1 / d i) + R
  (f nineq T).map fun T_LU =>
    let oldPivots := unpackP fun k : Fin nineq => S_LU.piv (Fin.natAdd neq k) - neq
    let newPivots := unpackP T_LU.piv
    let S_LU_21 := S_LU.data.submatrix (Fin.natAdd neq) (Fin.castAdd nineq)
    { data := catBlocks (S_LU.data.submatrix (Fin.castAdd nineq) (Fin.castAdd nineq))
        (S_LU.data.submatrix (Fin.castAdd nineq) (Fin.natAdd neq))
        (newPivotsᵀ * (oldPivots * S_LU_21)) T_LU.data
      piv := Fin.addCases (fun k => S_LU.piv (Fin.castAdd nineq k)) fun k => T_LU.piv k + neq }

/-- pdipm.py:325-354 `solve_kkt`, one batch element. -/
def solve_kkt {nz nineq neq : ℕ} (Q_LU : PackedLU nz) (d : Fin nineq → ℝ)
    (G : Matrix (Fin nineq) (Fin nz) ℝ) (A : Matrix (Fin neq) (Fin nz) ℝ) (S_LU : PackedLU (neq + nineq))
    (rx : Fin nz → ℝ) (rs rz : Fin nineq → ℝ) (ry : Fin neq → ℝ) : Iter nz nineq neq :=
  let invQ_rx := btrisolveV Q_LU rx
  let h : Fin (neq + nineq) → ℝ := Fin.addCases (invQ_rx ᵥ* Aᵀ - ry)
    (fun i => (invQ_rx ᵥ* Gᵀ) i + rs i / d i - rz i)
  let w := -btrisolveV S_LU h
  let w1 : Fin neq → ℝ := fun i => w (Fin.castAdd nineq i)
  let w2 : Fin nineq → ℝ := fun i => w (Fin.natAdd neq i)
  let g1 := -rx - w2 ᵥ* G - w1 ᵥ* A
  let g2 := -rs - w2
  { x := btrisolveV Q_LU g1, s := fun i => g2 i / d i, z := w2, y := w1 }

/-- Apply a possibly raising operation to every batch element; raises if one does. -/
def batchM {B : ℕ} {α : Type} (g : Fin B → Option α) : Option (Fin B → α) :=
  if h : ∀ b, (g b).isSome then some fun b => (g b).get (h b) else none

/-- `torch.min(v, 1)[0]` of one row. -/
def rowMin {n : ℕ} [NeZero n] (v : Fin n → ℝ) : ℝ := Finset.univ.inf' ⟨0, Finset.mem_univ _⟩ v

open Classical in
/-- pdipm.py:66-76: `I = M <= 0; s[I] -= M[I] - 1` on one row. -/
def shiftPos {n : ℕ} [NeZero n] (v : Fin n → ℝ) : Fin n → ℝ :=
  if rowMin v ≤ 0 then fun i => v i - (rowMin v - 1) else v

open Classical in
/-- pdipm.py:182-186 `get_step`; a zero in `dv` makes the quotient infinite and is reported as
`none` (the step of that row is then `-inf` for `v > 0`, and the iterate becomes non-finite). -/
def get_step {B n : ℕ} [NeZero B] [NeZero n] (v dv : Fin B → Fin n → ℝ) : Option (Fin B → ℝ) :=
  if ∃ b i, dv b i = 0 then none
  else
    let a : Fin B → Fin n → ℝ := fun b i => -v b i / dv b i
    let amax : ℝ := (Finset.univ : Finset (Fin B × Fin n)).sup' ⟨(0, 0), Finset.mem_univ _⟩
      fun k => a k.1 k.2
    let a' : Fin B → Fin n → ℝ := fun b i => if dv b i > 0 then max 1 amax else a b i
    some fun b => rowMin (a' b)

/-- `torch.norm(r, 2, 1)` of one row. -/
def norm2 {n : ℕ} (r : Fin n → ℝ) : ℝ := Real.sqrt (∑ i, r i ^ 2)

variable {nz nineq neq B : ℕ}

/-- pdipm.py:83-86 dual residual `rx`. -/
def Lcp.rx (P : Lcp nz nineq neq) (v : Iter nz nineq neq) : Fin nz → ℝ :=
  v.y ᵥ* P.A + v.z ᵥ* P.G + v.x ᵥ* P.Qᵀ + P.p

/-- pdipm.py:88-89 `rz`. -/
def Lcp.rz (P : Lcp nz nineq neq) (v : Iter nz nineq neq) : Fin nineq → ℝ :=
  v.x ᵥ* P.Gᵀ + v.s - P.h - v.z ᵥ* P.Fᵀ

/-- pdipm.py:90-91 `ry`. -/
def Lcp.ry (P : Lcp nz nineq neq) (v : Iter nz nineq neq) : Fin neq → ℝ :=
  v.x ᵥ* P.Aᵀ - P.b

/-- pdipm.py:92 `mu`. -/
def Iter.mu (v : Iter nz nineq neq) : ℝ := |(∑ i, v.s i * v.z i) / nineq|

/-- pdipm.py:93-97 `resids`. -/
def Lcp.resid (P : Lcp nz nineq neq) (v : Iter nz nineq neq) : ℝ :=
  norm2 (P.ry v) + norm2 (P.rz v) + norm2 (P.rx v) + nineq * v.mu

/-- The best iterate so far with its residual, batched. -/
structure Best (B nz nineq neq : ℕ) where
  resids : Fin B → ℝ
  x : Fin B → Fin nz → ℝ
  s : Fin B → Fin nineq → ℝ
  z : Fin B → Fin nineq → ℝ
  y : Fin B → Fin neq → ℝ

/-- `best.masked_scatter_(I_n, x[I_n])` with the row mask `I` repeated along the rows; the result is
read back row by row. -/
def scatterRows {n : ℕ} (I : Fin B → Bool) (best x : Fin B → Fin n → ℝ) : Fin B → Fin n → ℝ :=
  let mask := flatten fun b (_ : Fin n) => I b
  let out := (maskedScatter mask (flatten best) (maskedSelect mask (flatten x))).getD []
  fun b i => out.getD (b * n + i) 0

open Classical in
/-- pdipm.py:109-136: the bookkeeping of the best iterate and of `nNotImproved`. -/
def updateBest (resids : Fin B → ℝ) (it : Fin B → Iter nz nineq neq)
    (best : Option (Best B nz nineq neq)) (nNot : ℕ) : Best B nz nineq neq × ℕ :=
  match best with
  | none => ({ resids := resids, x := fun b => (it b).x, s := fun b => (it b).s,
               z := fun b => (it b).z, y := fun b => (it b).y }, 0)
  | some w =>
    let I : Fin B → Bool := fun b => decide (resids b < w.resids b)
    let nNot := if ∃ b, I b = true then 0 else nNot + 1
    ({ resids := fun b => scatterRows I (fun b (_ : Fin 1) => w.resids b) (fun b _ => resids b) b 0
       x := scatterRows I w.x fun b => (it b).x
       z := scatterRows I w.z fun b => (it b).z
       s := scatterRows I w.s fun b => (it b).s
       y := fun b i => if I b then (it b).y i else w.y b i }, nNot)

/-- pdipm.py:143-174: one predictor-corrector step from the factorised system; `none` when the
iterate becomes non-finite. -/
def pdStep [NeZero B] [NeZero nineq] (P : Fin B → Lcp nz nineq neq)
    (Q_LU : Fin B → PackedLU nz) (S_LU : Fin B → PackedLU (neq + nineq))
    (it : Fin B → Iter nz nineq neq) : Option (Fin B → Iter nz nineq neq) :=
  let d : Fin B → Fin nineq → ℝ := fun b i => (it b).z i / (it b).s i
  let aff : Fin B → Iter nz nineq neq := fun b => solve_kkt (Q_LU b) (d b) (P b).G (P b).A (S_LU b)
    ((P b).rx (it b)) (it b).z ((P b).rz (it b)) ((P b).ry (it b))
  match get_step (fun b => (it b).z) (fun b => (aff b).z),
      get_step (fun b => (it b).s) (fun b => (aff b).s) with
  | some stz, some sts =>
    let alpha : Fin B → ℝ := fun b => min (min (stz b) (sts b)) 1
    let t1 : Fin B → Fin nineq → ℝ := fun b i => (it b).s i + alpha b * (aff b).s i
    let t2 : Fin B → Fin nineq → ℝ := fun b i => (it b).z i + alpha b * (aff b).z i
    let t3 : Fin B → ℝ := fun b => ∑ i, t1 b i * t2 b i
    let t4 : Fin B → ℝ := fun b => ∑ i, (it b).s i * (it b).z i
    let sig : Fin B → ℝ := fun b => (t3 b / t4 b) ^ 3
    let rs : Fin B → Fin nineq → ℝ := fun b i =>
      (-(it b).mu * sig b + (aff b).s i * (aff b).z i) / (it b).s i
    let cor : Fin B → Iter nz nineq neq := fun b =>
      solve_kkt (Q_LU b) (d b) (P b).G (P b).A (S_LU b) 0 (rs b) 0 0
    let dx : Fin B → Iter nz nineq neq := fun b =>
      { x := (aff b).x + (cor b).x, s := (aff b).s + (cor b).s, z := (aff b).z + (cor b).z
        y := (aff b).y + (cor b).y }
    match get_step (fun b => (it b).z) (fun b => (dx b).z),
        get_step (fun b => (it b).s) (fun b => (dx b).s) with
    | some stz, some sts =>
      let alpha : Fin B → ℝ := fun b => min (999 / 1000 * min (stz b) (sts b)) 1
      some fun b => {
        x := (it b).x + alpha b • (dx b).x
        s := (it b).s + alpha b • (dx b).s
        z := (it b).z + alpha b • (dx b).z
        y := (it b).y + alpha b • (dx b).y }
    | _, _ => none
  | _, _ => none

/-- How a run of `forward` ends: `best` (`none` are the four `None`s) or an exception. -/
inductive Outcome (B nz nineq neq : ℕ) where
  | ret (best : Option (Best B nz nineq neq))
  | raised (e : Err)

/-- Loop-independent data of a run. -/
structure Setup (B nz nineq neq : ℕ) where
  f : Btrifact
  P : Fin B → Lcp nz nineq neq
  Q_LU : Fin B → PackedLU nz
  R : Fin B → Matrix (Fin nineq) (Fin nineq) ℝ
  eps : ℝ
  lim : ℕ

open Classical in
/-- pdipm.py:81-179: `k` remaining passes of the loop.  A non-finite iterate has NaN residuals, which
compare false, so it never becomes the best one and every exit then returns the best so far; this
is done at once here (for `B > 1` this drops the other rows of the batch too). -/
def pdLoop [NeZero B] [NeZero nineq] (c : Setup B nz nineq neq) : ℕ →
    (Fin B → PackedLU (neq + nineq)) → (Fin B → Iter nz nineq neq) → Option (Best B nz nineq neq) → ℕ →
    Outcome B nz nineq neq
  | 0, _, _, none, _ => .raised (.raised "AttributeError: 'NoneType' object has no attribute 'max'")
  | 0, _, _, some w, _ => .ret (some w)
  | k + 1, S_LU, it, best, nNot =>
    let resids : Fin B → ℝ := fun b => (c.P b).resid (it b)
    match batchM fun b => factor_kkt c.f (S_LU b) (c.R b) fun i => (it b).z i / (it b).s i with
    | none => .ret best
    | some S_LU =>
      let r := updateBest resids it best nNot
      if r.2 = c.lim ∨ (∀ b, r.1.resids b < c.eps) ∨ (∀ b, (it b).mu > 10 ^ 100) then .ret (some r.1)
      else match pdStep c.P c.Q_LU S_LU it with
        | none => .ret (some r.1)
        | some it' => pdLoop c k S_LU it' (some r.1) r.2

/-- pdipm.py:56-76: the starting point. -/
def initIter [NeZero nineq] (P : Lcp nz nineq neq) (Q_LU : PackedLU nz) (S_LU : PackedLU (neq + nineq)) :
    Iter nz nineq neq :=
  let v := solve_kkt Q_LU (fun _ => 1) P.G P.A S_LU P.p 0 (-P.h) (-P.b)
  { x := v.x, s := shiftPos v.s, z := shiftPos v.z, y := v.y }

/-- pdipm.py:49-179 `forward`. -/
def pdForward [NeZero B] [NeZero nineq] (c : Setup B nz nineq neq) (max_iter : ℕ)
    (S_LU : Fin B → PackedLU (neq + nineq)) : Outcome B nz nineq neq :=
  match batchM fun b => factor_kkt c.f (S_LU b) (c.R b) fun _ => 1 with
  | none => .raised (.raised "RuntimeError: getrf")
  | some S_LU => pdLoop c max_iter S_LU (fun b => initIter (c.P b) (c.Q_LU b) (S_LU b)) none 0

/-- `batchM` for operations that raise with a message. -/
def batchE {B : ℕ} {α : Type} (g : Fin B → Except Err α) : Except Err (Fin B → α) :=
  match batchM fun b => (g b).toOption with
  | some r => .ok r
  | none => .error (.raised "RuntimeError: getrf")

/-- lcp.py:22-35 `LCPFunction.forward`. -/
def lcpForward [NeZero B] [NeZero nineq] (f : Btrifact) (eps : ℝ) (lim max_iter : ℕ)
    (P : Fin B → Lcp nz nineq neq) : Outcome B nz nineq neq :=
  match batchE fun b => pre_factor_kkt f (P b).Q (P b).G (P b).F (P b).A with
  | .error e => .raised e
  | .ok K => pdForward { f := f, P := P, Q_LU := fun b => (K b).Q_LU, R := fun b => (K b).R,
                         eps := eps, lim := lim } max_iter fun b => (K b).S_LU

/-- The gradients `backward` returns, one batch element. -/
structure Grads (nz nineq neq : ℕ) where
  dQ : Matrix (Fin nz) (Fin nz) ℝ
  dp : Fin nz → ℝ
  dG : Matrix (Fin nineq) (Fin nz) ℝ
  dh : Fin nineq → ℝ
  dA : Matrix (Fin neq) (Fin nz) ℝ
  db : Fin neq → ℝ
  dF : Matrix (Fin nineq) (Fin nineq) ℝ

/-- lcp.py:37-64 `LCPFunction.backward`, one batch element; `v` holds `zhats`, the slacks, `lams` and
`nus` of the forward pass. -/
def lcpBackward (f : Btrifact) (P : Lcp nz nineq neq) (K : Kkt nz nineq neq)
    (S_LU : PackedLU (neq + nineq)) (v : Iter nz nineq neq) (dl_dzhat : Fin nz → ℝ) :
    Option (Grads nz nineq neq) :=
  let d : Fin nineq → ℝ := fun i => v.z i / v.s i
  (factor_kkt f S_LU K.R d).map fun S_LU =>
    let w := solve_kkt K.Q_LU d P.G P.A S_LU dl_dzhat 0 0 0
    { dp := w.x
      dG := bger w.z v.x + bger v.z w.x
      dF := -bger w.z v.z
      dh := -w.z
      dA := bger w.y v.x + bger v.y w.x
      db := -w.y
      dQ := (1 / 2 : ℝ) • (bger w.x v.x + bger v.x w.x) }

end LcpPhysics
