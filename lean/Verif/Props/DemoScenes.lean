import Verif.Props.Demos

/-! # C115: the nine scenes are well made -/

noncomputable section

namespace LcpPhysics
open Spec Demos

/-- A tilt of `π / 32`. -/
theorem tilt_sin : |Real.sin (Real.pi / 32)| ≤ 1 / 8 := by
  have h0 := Real.pi_pos
  have h1 := Real.pi_le_four
  rw [abs_of_nonneg (Real.sin_nonneg_of_nonneg_of_le_pi (by positivity) (by linarith))]
  have := Real.sin_le (x := Real.pi / 32) (by positivity)
  linarith

theorem tilt_box (k l : ℝ) (hk : 0 ≤ k) (hl : 0 ≤ l) :
    k * |Real.sin (Real.pi / 32)| + l * |Real.cos (Real.pi / 32)| ≤ k * (1 / 8) + l :=
  add_le_add (mul_le_mul_of_nonneg_left tilt_sin hk)
    ((mul_le_mul_of_nonneg_left (Real.abs_cos_le_one _) hl).trans (by rw [mul_one]))

theorem tree_snoc (js : List Joint) (j : Joint) (h : JointTree js)
    (hj : ∃ m, (m = j.i1 ∨ j.i2 = some m) ∧ ∀ c ∈ held j m, ∀ j' ∈ js, c ∉ touched j') : JointTree (js ++ [j]) := by
  intro k hk
  rcases Nat.lt_or_ge k js.length with hlt | hge
  · obtain ⟨m, h1, h2⟩ := h k hlt
    refine ⟨m, by rw [List.getElem_append_left hlt]; exact h1, ?_⟩
    intro c hc k' hk'
    rw [List.getElem_append_left hlt] at hc
    rw [List.getElem_append_left (by omega)]
    exact h2 c hc k' hk'
  · have hk0 : k = js.length := by simp at hk; omega
    subst hk0
    obtain ⟨m, h1, h2⟩ := hj
    refine ⟨m, by simpa using h1, ?_⟩
    intro c hc k' hk'
    rw [List.getElem_append_left hk']
    exact h2 c (by simpa using hc) _ (List.getElem_mem hk')

theorem tree_nil : JointTree [] := fun k hk => by simp at hk

theorem tree_one (j : Joint) : JointTree [j] :=
  tree_snoc [] j tree_nil ⟨j.i1, Or.inl rfl, fun c _ j' hj' => by cases hj'⟩

theorem debug_tree (bs : List Body) : JointTree (debugJoints bs) :=
  tree_snoc [mkJoint bs 1 none (140, 220)] _ (tree_one _) ⟨3, Or.inl rfl, by
    intro c hc j' hj'
    simp only [List.mem_singleton] at hj'
    subst hj'
    simp [held, touched, coords, mkTotal, mkJoint] at hc ⊢
    omega⟩

theorem fric_tree (bs : List Body) : JointTree (fricJoints bs) := by
  refine tree_snoc [_, _, _] _ (tree_snoc [_, _] _ (tree_snoc [_] _ (tree_one _) ⟨2, Or.inl rfl, ?_⟩) ⟨3, Or.inl rfl, ?_⟩)
    ⟨3, Or.inl rfl, ?_⟩
  all_goals
    intro c hc j' hj'
    simp only [List.mem_cons, List.not_mem_nil, or_false] at hj'
    rcases hj' with rfl | rfl | rfl
  all_goals
    simp [held, touched, mkAxis] at hc ⊢
    try omega

theorem fixed_tree (bs : List Body) : JointTree [mkFixedJoint bs 0 1, mkTotal bs 2] :=
  tree_snoc [_] _ (tree_one _) ⟨2, Or.inl rfl, by
    intro c hc j' hj'
    simp only [List.mem_singleton] at hj'
    subst hj'
    simp [held, touched, coords, mkTotal, mkFixedJoint] at hc ⊢
    omega⟩

theorem links_tree (bs : List Body) : JointTree (chainPins bs) := by
  have key : ∀ n : ℕ, JointTree (mkAxis .xc bs 0 :: mkAxis .yc bs 0 ::
      (List.range n).map fun i => mkJoint bs (i + 1) (some i) (300, 25 + 50 * ((i + 1 : ℕ) : ℝ))) := by
    intro n
    induction n with
    | zero =>
      refine tree_snoc [_] _ (tree_one _) ⟨0, Or.inl rfl, ?_⟩
      intro c hc j' hj'
      simp only [List.mem_singleton] at hj'
      subst hj'
      simp [held, touched, mkAxis] at hc ⊢
      omega
    | succ n ih =>
      rw [List.range_succ, List.map_append, ← List.cons_append, ← List.cons_append]
      refine tree_snoc _ _ ih ⟨n + 1, Or.inl rfl, ?_⟩
      intro c hc j' hj'
      simp only [List.mem_cons, List.mem_map, List.mem_range] at hj'
      rcases hj' with rfl | rfl | ⟨i, hi, rfl⟩
      · simp [held, touched, mkAxis, mkJoint] at hc ⊢; omega
      · simp [held, touched, mkAxis, mkJoint] at hc ⊢; omega
      · simp [held, touched, coords, mkJoint] at hc ⊢; omega
  exact key 9

/-! ## Forces -/

theorem forces_ok_of (H : ForceHeap) (h : ∀ i, ∀ k ∈ H.attached i, ∀ t, ((H.obj k).force t).isSome) (n : ℕ) : ForcesOk H n := by
  intro t
  have hsum : ∀ (l : List ℕ) (acc : V3), (∀ k ∈ l, ((H.obj k).force t).isSome) →
      ∃ f, sumForces (l.map fun k => (H.obj k).force t) acc = some f := by
    intro l
    induction l with
    | nil => intro acc _; exact ⟨acc, rfl⟩
    | cons k l ih =>
      intro acc hl
      obtain ⟨f, hf⟩ := Option.isSome_iff_exists.1 (hl k (by simp))
      obtain ⟨r, hr⟩ := ih (acc + f) fun k' hk' => hl k' (by simp [hk'])
      exact ⟨r, by rw [List.map_cons, hf]; exact hr⟩
  induction n with
  | zero => exact ⟨[], rfl⟩
  | succ n ih =>
    obtain ⟨fl, hfl⟩ := ih
    obtain ⟨f, hf⟩ : ∃ f, H.apply_forces n t = some f := by
      unfold ForceHeap.apply_forces
      split_ifs
      · exact ⟨0, rfl⟩
      · exact hsum _ 0 fun k hk => h n k hk t
    exact ⟨fl ++ [f], by unfold forceCat; rw [hfl, hf]⟩

/-- Forces attached by `add_force` can be evaluated: the cached weight of `Gravity` is set. -/
theorem withForces_ok (objs : List Force) (calls : List (ℕ × ℕ)) (n : ℕ) : ForcesOk (withForces objs calls) n := by
  refine forces_ok_of _ ?_ n
  unfold withForces
  have key : ∀ (cs : List (ℕ × ℕ)) (H : ForceHeap), (∀ i, ∀ k ∈ H.attached i, ∀ t, ((H.obj k).force t).isSome) →
      ∀ i, ∀ k ∈ (cs.foldl (fun H c => H.add_force c.1 1 c.2) H).attached i, ∀ t,
        (((cs.foldl (fun H c => H.add_force c.1 1 c.2) H).obj k).force t).isSome := by
    intro cs
    induction cs with
    | nil => exact fun H h => h
    | cons c cs ih =>
      intro H h
      refine ih _ ?_
      intro i k hk t
      have hset : ∀ f : Force, ((f.set_body 1).force t).isSome := by
        intro f; cases f <;> rfl
      have hk' : k = c.2 ∨ k ∈ H.attached i := by
        simp only [ForceHeap.add_force] at hk
        split_ifs at hk
        · rcases List.mem_append.1 hk with h1 | h1
          · exact Or.inr h1
          · exact Or.inl (by simpa using h1)
        · exact Or.inr hk
      show ((if k = c.2 then (H.obj k).set_body 1 else H.obj k).force t).isSome
      split_ifs with hc
      · exact hset _
      · exact h i k (hk'.resolve_left hc) t
  exact key calls _ fun i k hk => by simp at hk

/-! ## The scenes -/

theorem debug_apart (k l : ℕ) (hl : l < 10) (h : k < l) :
    StartApart (debug_demo.items.getD k clock) (debug_demo.items.getD l clock) := by
  interval_cases l <;> interval_cases k <;>
    norm_num [StartApart, halfBox, startPose, debug_demo, debugBalls, clock, Arg.toV3, abs_of_nonneg, abs_of_neg]

theorem debug_fine : ∀ i ∈ debug_demo.items, Fine i := by
  intro i hi
  simp only [debug_demo, debugBalls, clock, List.cons_append, List.nil_append, List.mem_cons, List.not_mem_nil, or_false] at hi
  rcases hi with rfl | rfl | rfl | rfl | rfl | rfl | rfl | rfl | rfl | rfl <;> norm_num [Fine]

theorem debug_joints (bs : List Body) (n : ℕ) (hn : 4 ≤ n) : ∀ j ∈ debugJoints bs, j.i1 < n ∧
    (∀ k ∈ j.i2, k < n ∧ j.i1 ≠ k) ∧ j.update_pos bs = j := by
  intro j hj
  simp only [debugJoints, List.mem_cons, List.not_mem_nil, or_false] at hj
  rcases hj with rfl | rfl
  · exact ⟨by simp [mkJoint]; omega, by simp [mkJoint], mkJoint_fix ..⟩
  · exact ⟨by simp [mkTotal]; omega, by simp [mkTotal], mkTotal_fix _ _ _ rfl⟩

theorem debug_made : WellMade debug_demo where
  some := by simp [debug_demo]
  fine := debug_fine
  apart := fun k _ l hl h => Or.inr (debug_apart k l hl h)
  joints := fun bs => debug_joints bs 10 (by norm_num)
  tree := debug_tree

theorem testDemo_made : WellMade testDemo where
  some := by simp [testDemo]
  fine := by
    intro i hi
    refine debug_fine i ?_
    simp only [testDemo, debug_demo, List.mem_append, List.mem_cons, List.not_mem_nil, or_false] at hi ⊢
    tauto
  apart := by
    intro k hk l hl h
    have hl' : l < 9 := hl
    have := debug_apart k l (by omega) h
    have e : ∀ m < 9, testDemo.items.getD m clock = debug_demo.items.getD m clock := by
      intro m hm
      interval_cases m <;> rfl
    rw [e k (by omega), e l hl']
    exact Or.inr this
  joints := fun bs => debug_joints bs 9 (by norm_num)
  tree := debug_tree

theorem fric_made' (e : ℝ) : (∀ i ∈ fricItems e, Fine i) ∧ ∀ k < 5, ∀ l < 5, k < l →
    StartApart ((fricItems e).getD k clock) ((fricItems e).getD l clock) := by
  constructor
  · intro i hi
    simp only [fricItems, clock, List.mem_cons, List.not_mem_nil, or_false] at hi
    rcases hi with rfl | rfl | rfl | rfl | rfl <;> norm_num [Fine]
  · intro k hk l hl h
    interval_cases l <;> interval_cases k <;>
      norm_num [StartApart, halfBox, startPose, fricItems, clock, Arg.toV3, abs_of_nonneg, abs_of_neg]

theorem fric_joints (bs : List Body) : ∀ j ∈ fricJoints bs, j.i1 < 5 ∧
    (∀ k ∈ j.i2, k < 5 ∧ j.i1 ≠ k) ∧ j.update_pos bs = j := by
  intro j hj
  simp only [fricJoints, List.mem_cons, List.not_mem_nil, or_false] at hj
  rcases hj with rfl | rfl | rfl | rfl <;> exact ⟨by simp [mkAxis], by simp [mkAxis], rfl⟩

theorem fric_made : WellMade fric_demo where
  some := by simp [fric_demo, fricItems]
  fine := (fric_made' _).1
  apart := fun k hk l hl h => Or.inr ((fric_made' _).2 k hk l hl h)
  joints := fric_joints
  tree := fric_tree

theorem testFric_made : WellMade testFric where
  some := by simp [testFric, fricItems]
  fine := (fric_made' _).1
  apart := fun k hk l hl h => Or.inr ((fric_made' _).2 k hk l hl h)
  joints := fric_joints
  tree := fric_tree

theorem slide_made : WellMade slide_demo where
  some := by simp [slide_demo]
  fine := by
    intro i hi
    simp only [slide_demo, List.mem_cons, List.not_mem_nil, or_false] at hi
    rcases hi with rfl | rfl <;> norm_num [Fine]
  apart := by
    intro k hk l hl h
    have hl' : l < 2 := hl
    interval_cases l
    · omega
    · interval_cases k
      have := tilt_box (900 / 2 + 0.1) (10 / 2 + 0.1) (by norm_num) (by norm_num)
      refine Or.inr (Or.inr ?_)
      norm_num [slide_demo, halfBox, startPose, Arg.toV3] at this ⊢
      linarith
  joints := by
    intro bs j hj
    simp only [slide_demo, List.mem_singleton] at hj
    subst hj
    exact ⟨by simp [mkTotal, slide_demo], by simp [mkTotal], mkTotal_fix _ _ _ rfl⟩
  tree := fun bs => tree_one _

theorem testSlide_made : WellMade testSlide where
  some := by simp [testSlide]
  fine := by
    intro i hi
    simp only [testSlide, List.mem_cons, List.not_mem_nil, or_false] at hi
    rcases hi with rfl | rfl <;> norm_num [Fine]
  apart := by
    intro k hk l hl h
    have hl' : l < 2 := hl
    interval_cases l
    · omega
    · interval_cases k
      have := tilt_box (900 / 2 + 0.1) (10 / 2 + 0.1) (by norm_num) (by norm_num)
      refine Or.inr (Or.inr ?_)
      norm_num [testSlide, halfBox, startPose, Arg.toV3] at this ⊢
      linarith
  joints := by
    intro bs j hj
    simp only [testSlide, List.mem_singleton] at hj
    subst hj
    exact ⟨by simp [mkTotal, testSlide], by simp [mkTotal], mkTotal_fix _ _ _ rfl⟩
  tree := fun bs => tree_one _

theorem fixed_made : WellMade fixed_joint_demo where
  some := by simp [fixed_joint_demo]
  fine := by
    intro i hi
    simp only [fixed_joint_demo, List.mem_cons, List.not_mem_nil, or_false] at hi
    rcases hi with rfl | rfl | rfl <;> norm_num [Fine]
  apart := by
    intro k hk l hl h
    have hl' : l < 3 := hl
    have := tilt_box (900 / 2 + 0.1) (10 / 2 + 0.1) (by norm_num) (by norm_num)
    interval_cases l
    · omega
    · interval_cases k
      left
      simp [fixed_joint_demo, addNoContact]
    · refine Or.inr (Or.inr ?_)
      interval_cases k
      · norm_num [fixed_joint_demo, halfBox, startPose, Arg.toV3] at this ⊢
        linarith
      · norm_num [fixed_joint_demo, halfBox, startPose, Arg.toV3] at this ⊢
        linarith
  joints := by
    intro bs j hj
    simp only [fixed_joint_demo, List.mem_cons, List.not_mem_nil, or_false] at hj
    rcases hj with rfl | rfl
    · exact ⟨by simp [mkFixedJoint, fixed_joint_demo], by simp [mkFixedJoint, fixed_joint_demo], (C28_constructors_fix bs 0 none 1 0).2.1⟩
    · exact ⟨by simp [mkTotal, fixed_joint_demo], by simp [mkTotal], mkTotal_fix _ _ _ rfl⟩
  tree := fixed_tree

theorem chain_fine (e r : ℝ) : ∀ i ∈ chainLinks e ++ [.circle (.two (50, 500)) 20 { restitution := r }, clock], Fine i := by
  intro i hi
  simp only [chainLinks, clock, List.mem_append, List.mem_map, List.mem_range, List.mem_cons, List.not_mem_nil, or_false] at hi
  rcases hi with ⟨k, -, rfl⟩ | rfl | rfl <;> norm_num [Fine]

theorem chain_apart (e r : ℝ) (k l : ℕ) (hl : l < 12) (h : k < l) : (k ∈ chainApart l ∧ l ∈ chainApart k) ∨
    StartApart ((chainLinks e ++ [.circle (.two (50, 500)) 20 { restitution := r }, clock]).getD k clock)
      ((chainLinks e ++ [.circle (.two (50, 500)) 20 { restitution := r }, clock]).getD l clock) := by
  have hlink : ∀ m < 10, (chainLinks e ++ [.circle (.two (50, 500)) 20 { restitution := r }, clock]).getD m clock =
      .rect (.two (300, 50 + 50 * (m : ℝ))) (20, 60) { restitution := e } := by
    intro m hm
    rw [List.getD_eq_getElem?_getD, List.getElem?_append_left (by simp [chainLinks]; omega)]
    simp [chainLinks, hm]
  have h10 : (chainLinks e ++ [.circle (.two (50, 500)) 20 { restitution := r }, clock]).getD 10 clock =
      .circle (.two (50, 500)) 20 { restitution := r } := rfl
  have h11 : (chainLinks e ++ [.circle (.two (50, 500)) 20 { restitution := r }, clock]).getD 11 clock = clock := rfl
  rcases Nat.lt_or_ge l 10 with hl10 | hl10
  · rcases Nat.lt_or_ge (k + 1) l with h2 | h2
    · right; right
      rw [hlink k (by omega), hlink l hl10]
      have : (k : ℝ) + 2 ≤ l := by exact_mod_cast h2
      norm_num [halfBox, startPose, Arg.toV3]
      rw [abs_of_nonpos (by linarith)]
      linarith
    · left
      have : l = k + 1 := by omega
      subst this
      have hk : k < 9 := by omega
      interval_cases k <;> decide
  · have hl' : l = 10 ∨ l = 11 := by omega
    right; left
    rcases Nat.lt_or_ge k 10 with hk | hk
    · rcases hl' with rfl | rfl
      · rw [hlink k hk, h10]
        norm_num [halfBox, startPose, Arg.toV3]
      · rw [hlink k hk, h11]
        norm_num [halfBox, startPose, Arg.toV3, clock, abs_of_neg]
    · have : k = 10 := by omega
      subst this
      have : l = 11 := by omega
      subst this
      rw [h10, h11]
      norm_num [halfBox, startPose, Arg.toV3, clock, abs_of_neg]

theorem chain_joints (bs : List Body) (n : ℕ) (hn : 10 ≤ n) : ∀ j ∈ chainPins bs, j.i1 < n ∧
    (∀ k ∈ j.i2, k < n ∧ j.i1 ≠ k) ∧ j.update_pos bs = j := by
  intro j hj
  simp only [chainPins, List.mem_cons, List.mem_map] at hj
  rcases hj with rfl | rfl | ⟨i, hi, rfl⟩
  · exact ⟨by simp [mkAxis]; omega, by simp [mkAxis], rfl⟩
  · exact ⟨by simp [mkAxis]; omega, by simp [mkAxis], rfl⟩
  · have h10 : 1 ≤ i ∧ i < 10 := by
      rw [List.mem_iff_getElem] at hi
      obtain ⟨m, hm, rfl⟩ := hi
      simp at hm ⊢
      omega
    refine ⟨by simp [mkJoint]; omega, ?_, mkJoint_fix ..⟩
    intro k hk
    simp [mkJoint] at hk ⊢
    omega

theorem chain_made : WellMade chain_demo where
  some := by simp [chain_demo]
  fine := chain_fine _ _
  apart := fun k _ l hl h => chain_apart _ _ k l hl h
  joints := fun bs => chain_joints bs 12 (by norm_num)
  tree := links_tree

theorem testChain_made : WellMade testChain where
  some := by simp [testChain]
  fine := by
    intro i hi
    refine chain_fine 0.5 1 i ?_
    simp only [testChain, List.mem_append, List.mem_cons, List.not_mem_nil, or_false] at hi ⊢
    tauto
  apart := by
    intro k hk l hl h
    have hl' : l < 11 := hl
    have e : ∀ m < 11, testChain.items.getD m clock =
        (chainLinks 0.5 ++ [.circle (.two (50, 500)) 20 { restitution := 1 }, clock]).getD m clock := by
      intro m hm
      interval_cases m <;> rfl
    rw [e k (by omega), e l hl']
    exact chain_apart _ _ k l (by omega) h
  joints := fun bs => chain_joints bs 11 (by norm_num)
  tree := links_tree

theorem shipped_made : ∀ d ∈ shippedScenes, WellMade d ∧ ∀ n, ForcesOk d.forces n := by
  intro d hd
  simp only [shippedScenes, List.mem_cons, List.not_mem_nil, or_false] at hd
  rcases hd with rfl | rfl | rfl | rfl | rfl | rfl | rfl | rfl | rfl
  · exact ⟨debug_made, withForces_ok _ _⟩
  · exact ⟨chain_made, withForces_ok _ _⟩
  · exact ⟨slide_made, withForces_ok _ _⟩
  · exact ⟨fric_made, withForces_ok _ _⟩
  · exact ⟨fixed_made, withForces_ok _ _⟩
  · exact ⟨testDemo_made, withForces_ok _ _⟩
  · exact ⟨testChain_made, withForces_ok _ _⟩
  · exact ⟨testSlide_made, withForces_ok _ _⟩
  · exact ⟨testFric_made, withForces_ok _ _⟩

end LcpPhysics
