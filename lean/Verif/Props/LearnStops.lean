import Verif.Props.LearnExamples
import Mathlib.Data.List.Chain

/-!
# C118: where the learning loops stop
-/

noncomputable section

namespace LcpPhysics.Learn

theorem chain_snoc {R : ℝ → ℝ → Prop} {x : ℝ} {l : List ℝ} {a b : ℝ} (h : List.IsChain R (x :: l)) (ha : (x :: l).getLast? = some a) (hab : R a b) :
    List.IsChain R (x :: (l ++ [b])) := by
  rw [← List.cons_append]
  refine List.IsChain.append h (by simp) ?_
  intro y hy z hz
  rw [ha] at hy
  simp at hy hz
  subst hy hz
  exact hab

theorem last_snoc (x : ℝ) (l : List ℝ) (b : ℝ) : (x :: (l ++ [b])).getLast? = some b := by
  rw [← List.cons_append, List.getLast?_concat]

theorem train_stops (show' : ℝ → Run Unit) (sim : ℝ → Run ℝ) (grad : ℝ → ℝ) (x : ℝ) : ∀ (k : ℕ) (s r : MassState),
    List.IsChain (fun a b => 1e-3 ≤ |a - b|) (x :: s.loss_hist) → (x :: s.loss_hist).getLast? = some s.last →
    train show' sim grad k s = .done r →
    List.IsChain (fun a b => 1e-3 ≤ |a - b|) (x :: r.loss_hist) ∧ (x :: r.loss_hist).getLast? = some r.last ∧
    (r.loss_hist.length = s.loss_hist.length + k ∨
      (r.loss_hist.length < s.loss_hist.length + k ∧ ∃ m loss, sim m = .done loss ∧ |r.last - loss| < 1e-3)) := by
  intro k
  induction k with
  | zero =>
    intro s r h1 h2 h
    unfold train at h
    injection h with h
    subst h
    exact ⟨h1, h2, Or.inl rfl⟩
  | succ k ih =>
    intro s r h1 h2 h
    unfold train at h
    simp only [Run.bind_eq_done] at h
    obtain ⟨-, -, loss, hsim, h⟩ := h
    split_ifs at h with hl
    · injection h with h
      subst h
      exact ⟨h1, h2, Or.inr ⟨by simp, _, loss, hsim, hl⟩⟩
    · obtain ⟨a1, a2, a3⟩ := ih _ r (chain_snoc h1 h2 (not_lt.1 hl)) (last_snoc _ _ _) h
      refine ⟨a1, a2, ?_⟩
      simp only [List.length_append, List.length_cons, List.length_nil, zero_add] at a3
      rcases a3 with a3 | ⟨a3, a4⟩
      · exact Or.inl (by omega)
      · exact Or.inr ⟨by omega, a4⟩

theorem learn_stops (play : ℕ → ℝ → ℝ → Run ℝ) (grad : ℕ → ℝ → ℝ → Option ℝ × Option ℝ) (x : ℝ) : ∀ (k i : ℕ) (s r : VelState),
    List.IsChain (fun a b => 1e-15 ≤ |a - b|) (x :: s.loss_hist) → (x :: s.loss_hist).getLast? = some s.last →
    s.loss_hist.length = i → learn play grad k i s = .done r →
    List.IsChain (fun a b => 1e-15 ≤ |a - b|) (x :: r.loss_hist) ∧ (x :: r.loss_hist).getLast? = some r.last ∧
    (r.loss_hist.length = i + k ∨
      (r.loss_hist.length < i + k ∧ ∃ vx vy loss, play r.loss_hist.length vx vy = .done loss ∧ |r.last - loss| < 1e-15)) := by
  intro k
  induction k with
  | zero =>
    intro i s r h1 h2 hi h
    unfold learn at h
    injection h with h
    subst h
    exact ⟨h1, h2, Or.inl hi⟩
  | succ k ih =>
    intro i s r h1 h2 hi h
    unfold learn at h
    simp only [Run.bind_eq_done] at h
    obtain ⟨loss, hsim, h⟩ := h
    split_ifs at h with hl
    · injection h with h
      subst h
      exact ⟨h1, h2, Or.inr ⟨by simp; omega, _, _, loss, by rw [hi]; exact hsim, hl⟩⟩
    · obtain ⟨a1, a2, a3⟩ := ih (i + 1) _ r (chain_snoc h1 h2 (not_lt.1 hl)) (last_snoc _ _ _) (by simp [hi]) h
      refine ⟨a1, a2, ?_⟩
      rcases a3 with a3 | ⟨a3, a4⟩
      · exact Or.inl (by omega)
      · exact Or.inr ⟨by omega, a4⟩

/-- C118: consecutive losses in the history of the mass inference differ by a thousandth or more, the first one from 10^10 as well; the
loop stops early only on a loss less than a thousandth from the one before. -/
theorem C118_mass_stops (show' : ℝ → Run Unit) (sim : ℝ → Run ℝ) (grad : ℝ → ℝ) (rand : ℝ) (r : MassState)
    (h : train show' sim grad 100 (massStart rand) = .done r) :
    List.IsChain (fun a b => 1e-3 ≤ |a - b|) (1e10 :: r.loss_hist) ∧
    (r.loss_hist.length = 100 ∨ (r.loss_hist.length < 100 ∧
      ∃ m loss last, sim m = .done loss ∧ (1e10 :: r.loss_hist).getLast? = some last ∧ |last - loss| < 1e-3)) := by
  obtain ⟨a1, a2, a3⟩ := train_stops show' sim grad 1e10 100 (massStart rand) r (by simp [massStart]) (by simp [massStart]) h
  refine ⟨a1, ?_⟩
  simp only [massStart, List.length_nil, zero_add] at a3
  rcases a3 with a3 | ⟨a3, m, loss, a4, a5⟩
  · exact Or.inl a3
  · exact Or.inr ⟨a3, m, loss, _, a4, a2, a5⟩

/-- C118: consecutive losses in the history of the Breakout parameters differ by 10^-15 or more, the first one from 10^10 as well; the loop
stops early only after a game with a loss less than 10^-15 from the one before. -/
theorem C118_game_stops (play : ℕ → ℝ → ℝ → Run ℝ) (grad : ℕ → ℝ → ℝ → Option ℝ × Option ℝ) (rx ry : ℝ) (r : VelState)
    (h : learn play grad 1000 0 (velStart rx ry) = .done r) :
    List.IsChain (fun a b => 1e-15 ≤ |a - b|) (1e10 :: r.loss_hist) ∧
    (r.loss_hist.length = 1000 ∨ (r.loss_hist.length < 1000 ∧
      ∃ vx vy loss last, play r.loss_hist.length vx vy = .done loss ∧ (1e10 :: r.loss_hist).getLast? = some last ∧ |last - loss| < 1e-15)) := by
  obtain ⟨a1, a2, a3⟩ := learn_stops play grad 1e10 1000 0 (velStart rx ry) r (by simp [velStart]) (by simp [velStart]) (by simp [velStart]) h
  refine ⟨a1, ?_⟩
  rcases a3 with a3 | ⟨a3, vx, vy, loss, a4, a5⟩
  · exact Or.inl (by simpa using a3)
  · exact Or.inr ⟨by simpa using a3, vx, vy, loss, _, a4, a2, a5⟩

/-- Losses that shrink by a millionth every game: all thousand games are played. -/
example : ∃ r, learn (fun i _ _ => .done (1 - i / 10 ^ 6)) (fun _ _ _ => (none, none)) 1000 0 (velStart 1 0) = .done r ∧ r.loss_hist.length = 1000 := by
  have total : ∀ (k i : ℕ) (s : VelState), ∃ r, learn (fun i _ _ => .done (1 - i / 10 ^ 6)) (fun _ _ _ => (none, none)) k i s = .done r := by
    intro k
    induction k with
    | zero => exact fun i s => ⟨_, rfl⟩
    | succ k ih =>
      intro i s
      unfold learn
      simp only [Run.bind]
      split_ifs
      · exact ⟨_, rfl⟩
      · exact ih _ _
  have go : ∀ (k i : ℕ) (s r : VelState), i + k ≤ 1000 → s.loss_hist.length = i → (s.last = 1e10 ∧ i = 0 ∨ 0 < i ∧ s.last = 1 - ((i : ℝ) - 1) / 10 ^ 6) →
      learn (fun i _ _ => .done (1 - i / 10 ^ 6)) (fun _ _ _ => (none, none)) k i s = .done r → r.loss_hist.length = i + k := by
    intro k
    induction k with
    | zero =>
      intro i s r _ hi _ h
      unfold learn at h
      injection h with h
      subst h
      exact hi
    | succ k ih =>
      intro i s r hk hi hl h
      unfold learn at h
      simp only [Run.bind] at h
      rw [if_neg] at h
      · have := ih (i + 1) _ r (by omega) (by simp [hi]) (Or.inr ⟨by omega, by push_cast; ring⟩) h
        omega
      · rw [not_lt]
        rcases hl with ⟨hl, rfl⟩ | ⟨-, hl⟩
        · rw [hl]
          norm_num
        · rw [hl, show 1 - ((i : ℝ) - 1) / 10 ^ 6 - (1 - i / 10 ^ 6) = 1 / 10 ^ 6 by ring]
          norm_num
  obtain ⟨r, hr⟩ := total 1000 0 (velStart 1 0)
  exact ⟨r, hr, by simpa using go 1000 0 _ r (by omega) rfl (Or.inl ⟨rfl, rfl⟩) hr⟩

end LcpPhysics.Learn
