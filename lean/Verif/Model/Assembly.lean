import Verif.Model.World
import Mathlib.Algebra.BigOperators.Group.Finset.Basic
import Mathlib.Data.Real.Basic

/-!
# Model of the matrices assembled by `World` (world.py:57-61, 144-234) and by the constraints

A matrix is a function `ℕ → ℕ → ℝ` together with its (implicit) size; `new_zeros` is the zero
function and a slice assignment is `setBlock`.  Entries outside the size are never read.
Contacts are assumed not to carry NaN tensors (`Contact.nan = false`) wherever numbers are read from
them; theorems that need this say so.
-/

noncomputable section

namespace LcpPhysics

/-- A matrix tensor. -/
abbrev Mat := ℕ → ℕ → ℝ

/-- `A[r : r+h, c : c+w] = B`. -/
def setBlock (A : Mat) (r h c w : ℕ) (B : Mat) : Mat := fun i j =>
  if (r ≤ i ∧ i < r + h) ∧ (c ≤ j ∧ j < c + w) then B (i - r) (j - c) else A i j

/-- `torch.matmul(A, v)` for `A` with `n` columns. -/
def mv (A : Mat) (n : ℕ) (v : Vec) : Vec := fun i => ∑ k ∈ Finset.range n, A i k * v k

/-- A matrix given by rows of size three. -/
def rows3 (l : List V3) : Mat := fun i j =>
  match l[i]? with
  | none => 0
  | some a => match j with
    | 0 => a.r
    | 1 => a.x
    | 2 => a.y
    | _ => 0

variable {σ φ : Type}

/-- bodies.py:43-47: `M[:1,:1] = ang_inertia; M[1:,1:] = eye(2) * mass`. -/
def Body.M (b : Body) : Mat :=
  setBlock (setBlock (fun _ _ => 0) 0 1 0 1 fun _ _ => b.ang_inertia) 1 2 1 2
    fun i j => (if i = j then 1 else 0) * b.mass

/-- world.py:60-61: the loop filling the block diagonal, from body `i` on. -/
def massLoop : List Body → ℕ → Mat → Mat
  | [], _, A => A
  | b :: bs, i, A => massLoop bs (i + 1) (setBlock A (i * 3) 3 (i * 3) 3 b.M)

/-- world.py:57-61, 153-154: `World.M()` (`M_size = 3`; the bodies' `M` never changes). -/
def World.M (w : World σ φ) : Mat := massLoop w.bodies 0 fun _ _ => 0

/-- `J()` of each class: constraints.py:29-36, 70-77, 106-108, 133-135, 160-162, 190-192. -/
def Joint.J (j : Joint) : Mat × Option Mat :=
  match j.kind with
  | .revolute =>
    (rows3 [⟨-j.pos1.2, 1, 0⟩, ⟨j.pos1.1, 0, 1⟩],
      match j.i2 with
      | none => none
      | some _ => some (rows3 [⟨j.pos2.2, -1, 0⟩, ⟨-j.pos2.1, 0, -1⟩]))
  | .fixed =>
    (rows3 [⟨-j.pos1.2, 1, 0⟩, ⟨j.pos1.1, 0, 1⟩, ⟨1, 0, 0⟩],
      some (rows3 [⟨j.pos2.2, -1, 0⟩, ⟨-j.pos2.1, 0, -1⟩, ⟨-1, 0, 0⟩]))
  | .yc => (rows3 [⟨0, 0, 1⟩], none)
  | .xc => (rows3 [⟨0, 1, 0⟩], none)
  | .rotc => (rows3 [⟨1, 0, 0⟩], none)
  | .total => (rows3 [⟨1, 0, 0⟩, ⟨0, 1, 0⟩, ⟨0, 0, 1⟩], none)

/-- world.py:159-169: the loop of `Je`.  `J1.size(0)` is the number of rows of the class
(equal to its `num_constraints`). -/
def JeLoop : List Joint → ℕ → Mat → Mat
  | [], _, A => A
  | j :: js, row, A =>
    let n := j.kind.num_constraints
    let A := setBlock A row n (j.i1 * 3) 3 j.J.1
    let A := match j.J.2, j.i2 with
      | some J2, some i2 => setBlock A row n (i2 * 3) 3 J2
      | _, _ => A
    JeLoop js (row + n) A

/-- world.py:156-170 `Je`. -/
def World.Je (w : World σ φ) : Mat := JeLoop w.joints 0 fun _ _ => 0

/-- world.py:46-53 `num_constraints`. -/
def World.num_constraints (w : World σ φ) : ℕ := (w.joints.map fun j => j.kind.num_constraints).sum

/-- world.py:45, 54-55 `static_inverse`. -/
def World.static_inverse (w : World σ φ) : Bool := w.joints.all fun j => j.kind.static

/-- world.py:174-183: the loop of `Jc` (`-cat` negates each entry). -/
def JcLoop : List Contact → ℕ → Mat → Mat
  | [], _, A => A
  | c :: cs, i, A =>
    let J1 := rows3 [⟨cross_2d c.p1 c.normal, c.normal.1, c.normal.2⟩]
    let J2 := rows3 [⟨-cross_2d c.p2 c.normal, -c.normal.1, -c.normal.2⟩]
    JcLoop cs (i + 1) (setBlock (setBlock A i 1 (c.i1 * 3) 3 J1) i 1 (c.i2 * 3) 3 J2)

/-- world.py:172-184 `Jc`. -/
def World.Jc (w : World σ φ) : Mat := JcLoop w.contacts 0 fun _ _ => 0

/-- world.py:189-210: the loop of `Jf` for `fric_dirs = 2`. -/
def JfLoop : List Contact → ℕ → Mat → Mat
  | [], _, A => A
  | c :: cs, i, A =>
    let dir1 := left_orthogonal c.normal
    let dir2 := -dir1
    let J1 := rows3 [⟨cross_2d c.p1 dir1, dir1.1, dir1.2⟩, ⟨cross_2d c.p1 dir2, dir2.1, dir2.2⟩]
    let J2 := rows3 [⟨cross_2d c.p2 dir1, dir1.1, dir1.2⟩, ⟨cross_2d c.p2 dir2, dir2.1, dir2.2⟩]
    JfLoop cs (i + 1) (setBlock (setBlock A (i * 2) 2 (c.i1 * 3) 3 J1) (i * 2) 2 (c.i2 * 3) 3
      fun a b => -J2 a b)

/-- world.py:186-211 `Jf`: with contacts, the assigned blocks have two rows, so any other
`fric_dirs` is a shape mismatch. -/
def World.Jf (fric_dirs : ℕ) (w : World σ φ) : Except Err Mat :=
  if w.contacts ≠ [] ∧ fric_dirs ≠ 2 then .error (.raised "RuntimeError: shape mismatch")
  else .ok (JfLoop w.contacts 0 fun _ _ => 0)

/-- A contact index into the body list. -/
def World.body (w : World σ φ) (i : ℕ) : Body := bodyAt w.bodies i

/-- world.py:144-151 `restitutions`. -/
def World.restitutions (w : World σ φ) : Vec := fun i =>
  match w.contacts[i]? with
  | none => 0
  | some c => ((w.body c.i1).restitution + (w.body c.i2).restitution) / 2

/-- world.py:216-224 `_memoized_mu`: `torch.diag` of the mean friction coefficients. -/
def World.mu (w : World σ φ) : Mat := fun i j =>
  if i = j then
    match w.contacts[i]? with
    | none => 0
    | some c => 0.5 * ((w.body c.i1).fric_coeff + (w.body c.i2).fric_coeff)
  else 0

/-- world.py:231-233: the loop `E[i*fd : (i+1)*fd, i] += 1`. -/
def ELoop (fd : ℕ) : ℕ → Mat
  | 0 => fun _ _ => 0
  | n + 1 => fun r c =>
    if (n * fd ≤ r ∧ r < (n + 1) * fd) ∧ c = n then ELoop fd n r c + 1 else ELoop fd n r c

/-- world.py:226-234 `E`. -/
def World.E (fd : ℕ) (w : World σ φ) : Mat := ELoop fd w.contacts.length

end LcpPhysics
