import Verif.Model.GameLoop

/-!
# What is sent to a game and what comes back
-/

noncomputable section

namespace LcpPhysics.Spec
open LcpPhysics.Breakout

/-- An action with the reply to it. -/
abbrev Move := ℤ × Reply

/-- The moves since the last reset, as a log with one list for each reset, the last first. -/
def note (log : List (List Move)) (m : Move) : List (List Move) := (log.headD [] ++ [m]) :: log.tail

/-- The game with a log of the moves. -/
def logged {γ : Type} (G : Game γ) : Game (γ × List (List Move)) where
  reset g := (G.reset g.1, [] :: g.2)
  step g a := let r := G.step g.1 a; ((r.1, note g.2 (a, r.2)), r.2)

/-- All rewards of an episode. -/
def earned (l : List Move) : ℝ := (l.map fun m => m.2.reward).sum

/-- The moves that are not a "start game". -/
def steered (l : List Move) : List Move := l.filter fun m => m.1 ≠ 1

/-- The number of "start game" moves. -/
def starts (l : List Move) : ℕ := (l.filter fun m => m.1 = 1).length

/-- The reward of the last move, if it ended the episode. -/
def lastReward (l : List Move) : ℝ :=
  match l.getLast? with
  | some m => if m.1 ≠ 1 ∧ m.2.stop then m.2.reward else 0
  | none => 0

/-- The states in which the loop of an episode can be. -/
inductive InPlay {γ : Type} (G : Game γ) (fuel T : ℕ) (threshold : ℝ) (noise : ℕ → ℝ) (plan : List ℝ → List ℝ → V2 → Run (List ℝ)) :
    PlayState γ → Prop
  | start {g drawn st} (h : opening G fuel T noise g drawn = .done st) : InPlay G fuel T threshold noise plan st
  | step {st st'} (h : InPlay G fuel T threshold noise plan st) (h' : pass G fuel T threshold noise plan st = .done (.next st')) :
      InPlay G fuel T threshold noise plan st'

end LcpPhysics.Spec
