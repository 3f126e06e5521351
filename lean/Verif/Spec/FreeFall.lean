import Verif.Spec.Frame
import Mathlib.Algebra.BigOperators.Group.Finset.Basic

/-! # Specification: frames that fall with uniform gravity, step by step -/

noncomputable section

namespace LcpPhysics.Spec

/-- A force `f` on a body of mass `m` as seen from the frame, with the weight `m γ` added. -/
def Frame.weighed (F : Frame) (γ : ℝ × ℝ) (m : ℝ) (f : V3) : V3 := F.force f + ⟨0, m * γ.1, m * γ.2⟩

/-- The frame after a step of nominal length `dt` and actual length `d`: the relative velocity has grown by the whole
`dt γ`, and with this new velocity the frame was carried along for the time `d`. -/
def Frame.fallen (F : Frame) (γ : ℝ × ℝ) (dt d : ℝ) : Frame :=
  ⟨F.turn, F.shift + d • (F.boost + dt • γ), F.boost + dt • γ⟩

/-- The frame after `k` steps of nominal length `dt` at whose ends the clock shows `τ 1, …, τ k`. -/
def Frame.falling (F : Frame) (γ : ℝ × ℝ) (dt : ℝ) (τ : ℕ → ℝ) (k : ℕ) : Frame :=
  ⟨F.turn, F.shift + ∑ j ∈ Finset.range k, (τ (j + 1) - τ j) • (F.boost + ((j + 1 : ℝ) * dt) • γ),
    F.boost + ((k : ℝ) * dt) • γ⟩

/-- The two worlds are the same scene, the second seen from the frame `F` (taken as it is now). -/
structure SeenNow {σ σ' φ φ' : Type} (F : Frame) (w : World σ φ) (w' : World σ' φ') : Prop where
  t : w'.t = w.t
  dt : w'.dt = w.dt
  eps : w'.eps = w.eps
  tol : w'.tol = w.tol
  post_stab : w'.post_stab = w.post_stab
  strict : w'.strict_no_pen = w.strict_no_pen
  bodies : w'.bodies = w.bodies.map (F.body 0)
  contacts : w'.contacts = w.contacts.map F.contact
  v : ∀ i < w.bodies.length, twist w'.v i = F.vel (twist w.v i)

end LcpPhysics.Spec
