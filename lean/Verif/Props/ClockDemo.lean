import Verif.Props.Clock
import Verif.Lemmas.DoubleNat
import Verif.Lemmas.World

/-!
# C119: how many steps the demo runs make
-/

noncomputable section

namespace LcpPhysics.Clock
open Spec

theorem rne_of_log (s u : ℕ) (hu : 0 < u) (x : ℝ) (e : ℤ) (hx : x = (s : ℝ) / u * (2 : ℝ) ^ e) (h0 : 0 < x) (h1 : (2 : ℝ) ^ (e + 52) ≤ x) (h2 : x < (2 : ℝ) ^ (e + 53)) (he : -1074 ≤ e) :
    rne x = (if 2 * (s % u) < u ∨ (2 * (s % u) = u ∧ (s / u) % 2 = 0) then s / u else s / u + 1 : ℕ) * (2 : ℝ) ^ e := by
  have hlog : Int.log 2 |x| = e + 52 := by
    rw [abs_of_pos h0]
    refine le_antisymm ?_ ?_
    · have : Int.log 2 x < e + 53 := by
        rw [← Int.lt_zpow_iff_log_lt (by norm_num) h0]
        exact_mod_cast h2
      omega
    · rw [← Int.zpow_le_iff_le_log (by norm_num) h0]
      exact_mod_cast h1
  unfold rne
  rw [if_neg h0.ne', hlog]
  have he : max (e + 52 - 52) (-1074) = e := by omega
  simp only [he]
  have hq : x / (2 : ℝ) ^ e = (s : ℝ) / u := by
    rw [hx]
    have : (2 : ℝ) ^ e ≠ 0 := by positivity
    field_simp
  rw [hq, roundEven_div s u hu]
  congr 1
  generalize s / u = q
  split_ifs <;> push_cast <;> rfl

/-- utils.py:28: `DT = 1.0 / 30`. -/
theorem rne_dt : rne (1 / 30) = (4803839602528529 : ℕ) * (2 : ℝ) ^ (-57 : ℤ) := by
  rw [rne_of_log (2 ^ 57) 30 (by norm_num) (1 / 30) (-57) (by norm_num) (by norm_num) (by norm_num) (by norm_num) (by norm_num)]
  norm_num

theorem rne_tenth : rne (1 / 10) = (7205759403792794 : ℕ) * (2 : ℝ) ^ (-56 : ℤ) := by
  rw [rne_of_log (2 ^ 56) 10 (by norm_num) (1 / 10) (-56) (by norm_num) (by norm_num) (by norm_num) (by norm_num) (by norm_num)]
  norm_num

/-- The clock in units of 2^-57. -/
def clockNat : ℕ → ℕ
  | 0 => 0
  | n + 1 => roundNat (clockNat n + 4803839602528529)

/-- The same with the intermediate times computed one after the other. -/
def clockGo (n : ℕ) : ℕ → ℕ :=
  Nat.rec (motive := fun _ => ℕ → ℕ) (fun s => s)
    (fun _ f s => Nat.rec (motive := fun _ => ℕ) (f (roundNat 4803839602528529)) (fun s' _ => f (roundNat (s' + 1 + 4803839602528529))) s) n

theorem clockGo_succ (n s : ℕ) : clockGo (n + 1) s = clockGo n (roundNat (s + 4803839602528529)) := by
  cases s with
  | zero =>
    rw [zero_add]
    unfold clockGo
    rfl
  | succ s =>
    unfold clockGo
    rfl

theorem clockGo_eq (n m : ℕ) : clockGo n (clockNat m) = clockNat (m + n) := by
  induction n generalizing m with
  | zero => rfl
  | succ n ih =>
    rw [clockGo_succ, show m + (n + 1) = (m + 1) + n by ring, ← ih, clockNat]

theorem clockNat_go (n : ℕ) : clockNat n = clockGo n 0 := by
  have := clockGo_eq n 0
  rw [zero_add] at this
  exact this.symm

theorem clock_nat (n : ℕ) : clockAt rne (rne (1 / 30)) n = clockNat n * (2 : ℝ) ^ (-57 : ℤ) := by
  induction n with
  | zero => simp [clockAt, clockNat]
  | succ n ih =>
    show rne (clockAt rne (rne (1 / 30)) n + rne (1 / 30)) = _
    rw [ih, rne_dt, ← add_mul, ← Nat.cast_add, rne_nat]
    rfl

theorem nat_le (n : ℕ) (T : ℝ) (b : ℕ) (hT : T = b * (2 : ℝ) ^ (-57 : ℤ)) : (T ≤ clockAt rne (rne (1 / 30)) n ↔ b ≤ clockNat n) := by
  rw [clock_nat, hT, mul_le_mul_iff_left₀ (by positivity)]
  exact Nat.cast_le

theorem demo_steps (T : ℝ) (b : ℕ) (hT : T = b * (2 : ℝ) ^ (-57 : ℤ)) (N : ℕ) (h1 : b ≤ clockGo (N + 1) 0) (h2 : clockGo N 0 < b) (n : ℕ) (hn : N + 1 ≤ n) :
    clockLoop rne (rne (1 / 30)) T n 0 0 = .done (N + 1) := by
  refine loop_of rne_nearest ?_ T (N + 1) ((nat_le _ T b hT).2 (by rwa [clockNat_go])) (fun m hm => ?_) n hn
  · rw [rne_dt]; positivity
  · have : m = N := by omega
    subst this
    rw [← clockNat_go] at h2
    exact not_le.1 (fun h => absurd ((nat_le _ T b hT).1 h) (by omega))

theorem clockGo_add (a b s : ℕ) : clockGo (a + b) s = clockGo b (clockGo a s) := by
  induction a generalizing s with
  | zero => rw [zero_add]; rfl
  | succ a ih => rw [show a + 1 + b = (a + b) + 1 by ring, clockGo_succ, clockGo_succ, ih]

theorem go_600 : clockGo 600 0 = 2882303761517139456 := by decide +kernel
theorem go_1200 : clockGo 600 2882303761517139456 = 5764607523034276864 := by decide +kernel
theorem go_1800 : clockGo 600 5764607523034276864 = 8646911284551230464 := by decide +kernel
theorem go_2400 : clockGo 600 8646911284551230464 = 11529215046068185088 := by decide +kernel
theorem go_3000 : clockGo 600 11529215046068185088 = 14411518807585138688 := by decide +kernel
theorem go_3600 : clockGo 600 14411518807585138688 = 17293822569102092288 := by decide +kernel
theorem go_4200 : clockGo 600 17293822569102092288 = 20176126330619047936 := by decide +kernel
theorem go_4800 : clockGo 600 20176126330619047936 = 23058430092136001536 := by decide +kernel
theorem go_5400 : clockGo 600 23058430092136001536 = 25940733853652955136 := by decide +kernel

theorem go_1199 : clockGo 1199 0 < 40 * 2 ^ 57 := by
  rw [show 1199 = 600 + 599 from rfl, clockGo_add, go_600]
  decide +kernel

theorem go_1200' : clockGo 1200 0 = 5764607523034276864 := by
  rw [show 1200 = 600 + 600 from rfl, clockGo_add, go_600, go_1200]

theorem go_5400' : clockGo 5400 0 = 25940733853652955136 := by
  rw [show 5400 = 600 + 600 + 600 + 600 + 600 + 600 + 600 + 600 + 600 from rfl]
  simp only [clockGo_add, go_600, go_1200, go_1800, go_2400, go_3000, go_3600, go_4200, go_4800, go_5400]

theorem go_5401' : clockGo 5401 0 = 25945537693255483392 := by
  rw [show 5401 = 5400 + 1 from rfl, clockGo_add, go_5400']
  decide +kernel

/-- C119: with doubles `run_world` makes 211 steps for a run time of 7 (grad_demo), 301 for 10 (debug_demo, fric_demo), 600 for 20,
1200 for 40 (chain_demo) and 5401 for 180 (test_hull). -/
theorem C119_demo_steps : ∀ n, 5401 ≤ n →
    clockLoop rne (rne (1 / 30)) 7 n 0 0 = .done 211 ∧ clockLoop rne (rne (1 / 30)) 10 n 0 0 = .done 301 ∧
    clockLoop rne (rne (1 / 30)) 20 n 0 0 = .done 600 ∧ clockLoop rne (rne (1 / 30)) 40 n 0 0 = .done 1200 ∧
    clockLoop rne (rne (1 / 30)) 180 n 0 0 = .done 5401 := by
  intro n hn
  refine ⟨?_, ?_, ?_, ?_, ?_⟩
  · exact demo_steps 7 (7 * 2 ^ 57) (by norm_num) 210 (by decide +kernel) (by decide +kernel) n (by omega)
  · exact demo_steps 10 (10 * 2 ^ 57) (by norm_num) 300 (by decide +kernel) (by decide +kernel) n (by omega)
  · exact demo_steps 20 (20 * 2 ^ 57) (by norm_num) 599 (by decide +kernel) (by decide +kernel) n (by omega)
  · exact demo_steps 40 (40 * 2 ^ 57) (by norm_num) 1199 (by rw [go_1200']; norm_num) go_1199 n (by omega)
  · exact demo_steps 180 (180 * 2 ^ 57) (by norm_num) 5400 (by rw [go_5401']; norm_num) (by rw [go_5400']; norm_num) n (by omega)

theorem clock_exact (dt : ℝ) (n : ℕ) : clockAt id dt n = n * dt := by
  induction n with
  | zero => simp [clockAt]
  | succ n ih =>
    show clockAt id dt n + dt = _
    rw [ih]
    push_cast
    ring

/-- C119: with exact arithmetic a run of `K` seconds makes `30 K` steps: one less for 7, 10 and 180. -/
theorem C119_exact_steps (K : ℕ) (n : ℕ) (hn : 30 * K ≤ n) : clockLoop id (1 / 30) K n 0 0 = .done (30 * K) := by
  refine loop_of_mono (fun {a b} hab => ?_) _ _ ?_ (fun m hm => ?_) n hn
  · rw [clock_exact, clock_exact]
    have : (a : ℝ) ≤ b := by exact_mod_cast hab
    linarith
  · rw [clock_exact]
    push_cast
    linarith
  · rw [clock_exact]
    have : (m : ℝ) + 1 = 30 * K := by exact_mod_cast hm
    linarith

/-- C119: the times the forces of the demos depend on fall as they would exactly: the pull of fric_demo (`1 < t < 2`) acts in 29
steps, and the push of grad_demo (`t < 0.1`) in three. -/
theorem C119_force_times (n : ℕ) : let t := clockAt rne (rne (1 / 30)) n
    ((1 < t ∧ t < 2) ↔ (31 ≤ n ∧ n ≤ 59)) ∧ (t < rne (1 / 10) ↔ n < 3) ∧
    ((1 < clockAt id (1 / 30) n ∧ clockAt id (1 / 30) n < 2) ↔ (31 ≤ n ∧ n ≤ 59)) ∧ (clockAt id (1 / 30) n < 1 / 10 ↔ n < 3) := by
  intro t
  have hd : (0 : ℝ) ≤ rne (1 / 30) := by rw [rne_dt]; positivity
  have mono : ∀ {a b : ℕ}, a ≤ b → clockAt rne (rne (1 / 30)) a ≤ clockAt rne (rne (1 / 30)) b :=
    fun h => clock_mono rne_nearest hd h
  have one : ∀ m, (1 : ℝ) < clockAt rne (rne (1 / 30)) m ↔ 2 ^ 57 < clockNat m := by
    intro m
    rw [clock_nat, show (1 : ℝ) = ((2 ^ 57 : ℕ) : ℝ) * (2 : ℝ) ^ (-57 : ℤ) by norm_num, mul_lt_mul_iff_left₀ (by positivity)]
    exact Nat.cast_lt
  have two := fun m => nat_le m 2 (2 * 2 ^ 57) (by norm_num)
  have ten := fun m => nat_le m (rne (1 / 10)) (2 * 7205759403792794) (by rw [rne_tenth]; norm_num)
  refine ⟨⟨fun ⟨h1, h2⟩ => ⟨?_, ?_⟩, fun ⟨h1, h2⟩ => ⟨?_, ?_⟩⟩, ⟨fun h => ?_, fun h => ?_⟩, ?_, ?_⟩
  · by_contra hc
    have : t ≤ clockAt rne (rne (1 / 30)) 30 := mono (by omega)
    exact absurd ((one 30).1 (h1.trans_le this)) (by decide +kernel)
  · by_contra hc
    have : clockAt rne (rne (1 / 30)) 60 ≤ t := mono (by omega)
    exact absurd (this.trans_lt h2) (not_lt.2 ((two 60).2 (by decide +kernel)))
  · exact ((one 31).2 (by decide +kernel)).trans_le (mono h1)
  · exact (mono h2).trans_lt (not_le.1 (fun h => absurd ((two 59).1 h) (by decide +kernel)))
  · by_contra hc
    have : clockAt rne (rne (1 / 30)) 3 ≤ t := mono (by omega)
    exact absurd (this.trans_lt h) (not_lt.2 ((ten 3).2 (by decide +kernel)))
  · exact (mono (show n ≤ 2 by omega)).trans_lt (not_le.1 (fun h => absurd ((ten 2).1 h) (by decide +kernel)))
  · rw [clock_exact]
    constructor
    · rintro ⟨h1, h2⟩
      have a1 : ((30 : ℕ) : ℝ) < n := by push_cast; linarith
      have a2 : (n : ℝ) < ((60 : ℕ) : ℝ) := by push_cast; linarith
      have := Nat.cast_lt.1 a1
      have := Nat.cast_lt.1 a2
      omega
    · rintro ⟨h1, h2⟩
      have a1 : (31 : ℝ) ≤ n := by exact_mod_cast h1
      have a2 : (n : ℝ) ≤ 59 := by exact_mod_cast h2
      constructor <;> linarith
  · rw [clock_exact]
    constructor
    · intro h
      have : (n : ℝ) < (3 : ℕ) := by push_cast; linarith
      exact Nat.cast_lt.1 this
    · intro h
      have : (n : ℝ) ≤ 2 := by exact_mod_cast (by omega : n ≤ 2)
      linarith

/-! ## Examples -/

theorem dt_pos : 0 < rne (1 / 30) := by rw [rne_dt]; positivity

theorem dt_rep : Rep (rne (1 / 30)) := (rne_nearest _).1

/-- The clock of the demos after ten seconds is off by less than 10^-12 seconds. -/
example : |clockAt rne (rne (1 / 30)) 300 - 300 * rne (1 / 30)| ≤ 1 / 10 ^ 12 := by
  have := C119_error rne_nearest dt_rep dt_pos 300 (by norm_num)
  have h : rne (1 / 30) ≤ 1 / 29 := by rw [rne_dt]; norm_num
  push_cast at this
  refine this.trans ((mul_le_mul_of_nonneg_left h (by norm_num)).trans ?_)
  norm_num

/-- The bounds for the 211 steps of grad_demo. -/
example : 7 / rne (1 / 30) - 211 ^ 2 / 2 ^ 53 ≤ 211 ∧ (211 : ℝ) < 7 / rne (1 / 30) + 1 + 211 ^ 2 / 2 ^ 53 := by
  have := C119_steps rne_nearest dt_rep dt_pos 7 (by norm_num) 5401 211 (by norm_num) (C119_demo_steps 5401 le_rfl).1
  exact_mod_cast this

/-- An hour of simulated time ends. -/
example : ∃ N, ∀ n, N ≤ n → clockLoop rne (rne (1 / 30)) 3600 n 0 0 = .done N := by
  obtain ⟨N, -, h⟩ := C119_returns rne_nearest dt_rep dt_pos 3600 (by rw [rne_dt]; norm_num)
  exact ⟨N, h⟩

/-- The second step of a world with `fixed_dt`, cut in three: it ends at two steps. -/
example : fixedClock rne (rne (1 / 30)) [2, 1, 0] (rne (1 / 30)) = .done (2 * rne (1 / 30)) := by
  have := (C119_fixed rne_nearest (rne (1 / 30)) dt_rep dt_pos.le le_rfl [2, 1]).2 []
  simp only [List.cons_append, List.nil_append] at this
  rw [this, ← two_mul]
  congr 1
  refine nearest_id rne_nearest ?_
  obtain ⟨m, e, h, h1, h2⟩ := dt_rep
  exact ⟨m, e + 1, by rw [h, zpow_add_one₀ (by norm_num)]; ring, h1, by omega⟩

/-- Where the clock of the demos stands still. -/
example : tick rne (rne (1 / 30)) (2 ^ 49) = 2 ^ 49 :=
  (C119_stands rne_nearest dt_pos.le (by rw [rne_dt]; norm_num)).1

/-! ## The clock of the model of the world -/

variable {σ φ : Type}

theorem halved_exact (d : ℝ) (k : ℕ) : halved id d k = d / 2 ^ k := by
  induction k with
  | zero => simp [halved]
  | succ k ih =>
    simp only [halved, ih, id]
    rw [pow_succ]
    field_simp

/-- C119: without rounding this is the clock of the world model, step by step and in `step(fixed_dt=True)`. -/
theorem C119_clock_of_world (env : Env σ φ) (fuel : ℕ) :
    (∀ (w w' : World σ φ) (dt : ℝ), w.Good → w.step_dt env fuel dt = .done w' → ∃ k, w'.t = tick id (halved id dt k) w.t) ∧
    (∀ (sub : ℕ) (w w' : World σ φ), w.Good → w.step env fuel sub true = .done w' →
      ∃ ks, ks.length ≤ sub ∧ fixedClock id w.dt ks w.t = .done w'.t) := by
  have one : ∀ (w w' : World σ φ) (dt : ℝ), w.Good → w.step_dt env fuel dt = .done w' → ∃ k, w'.t = tick id (halved id dt k) w.t := by
    intro w w' dt hg h
    obtain ⟨e, v, k, w1, w2, -, -, -, -, -, -, hend⟩ := step_dt_done hg h
    refine ⟨k, ?_⟩
    rw [halved_exact]
    rcases hend with ⟨-, rfl⟩ | ⟨-, dp, f2, cs2, -, w3, -, -, rfl⟩ <;> rfl
  refine ⟨one, ?_⟩
  intro sub w w' hg h
  have key : ∀ (e : ℝ) (sub : ℕ) (w w' : World σ φ), w.Good → LcpPhysics.fixedLoop env fuel e sub w = .done w' →
      ∃ ks, ks.length ≤ sub ∧ fixedLoop id e ks w.t = .done w'.t := by
    intro e sub
    induction sub with
    | zero =>
      intro w w' hg h
      unfold LcpPhysics.fixedLoop at h
      split_ifs at h with hlt
      injection h with h
      subst h
      refine ⟨[], le_rfl, ?_⟩
      unfold fixedLoop
      rw [if_neg hlt]
    | succ sub ih =>
      intro w w' hg h
      unfold LcpPhysics.fixedLoop at h
      split_ifs at h with hlt
      · simp only at h
        cases hs : w.step_dt env fuel (e - w.t) with
        | raised r => rw [hs] at h; simp [Run.bind] at h
        | running => rw [hs] at h; simp [Run.bind] at h
        | done w1 =>
          rw [hs] at h
          simp only [Run.bind] at h
          obtain ⟨k, hk⟩ := one w w1 _ hg hs
          obtain ⟨ks, h1, h2⟩ := ih w1 w' (step_dt_good hg hs) h
          refine ⟨k :: ks, by simpa using h1, ?_⟩
          unfold fixedLoop
          rw [if_pos hlt]
          simp only [id] at hk ⊢
          rw [← hk]
          exact h2
      · injection h with h
        subst h
        refine ⟨[], by simp, ?_⟩
        unfold fixedLoop
        rw [if_neg hlt]
  unfold World.step at h
  rw [if_pos rfl] at h
  exact key _ sub w w' hg h

end LcpPhysics.Clock
