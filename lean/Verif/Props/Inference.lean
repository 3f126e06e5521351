import Verif.Model.Inference
import Verif.Props.SearchTotal
import Verif.Props.PostStab
import Verif.Props.Solvable

/-!
# C95: the mass-inference experiment — before the projectile hits the chain
-/

noncomputable section

namespace LcpPhysics
open Spec Inference

/-! ## The bodies -/

/-- Link `i` of the chain. -/
def chainLink (n : ℕ) (mass : ℝ) (i : ℕ) : Body :=
  rectBase (.two (300, 50 + 50 * i)) (20, 60) { mass := mass / n }

/-- The projectile. -/
def chainBall (n : ℕ) : Body := mkCircle (.two (50, 50 + 50 * ((n - 1 : ℕ) : ℝ))) 20 { restitution := 1 }

/-- All bodies. -/
def chainList (n : ℕ) (mass : ℝ) : List Body := (List.range n).map (chainLink n mass) ++ [chainBall n]

theorem chain_length (n : ℕ) (mass : ℝ) : (chainList n mass).length = n + 1 := by simp [chainList]

theorem chain_link (n : ℕ) (mass : ℝ) (i : ℕ) (hi : i < n) : bodyAt (chainList n mass) i = chainLink n mass i := by
  simp [bodyAt, chainList, List.getD_eq_getElem?_getD, List.getElem?_append, hi]

theorem chain_ball (n : ℕ) (mass : ℝ) : bodyAt (chainList n mass) n = chainBall n := by
  simp [bodyAt, chainList, List.getD_eq_getElem?_getD]

theorem link_ok (n : ℕ) (mass : ℝ) (i : ℕ) : linkBody n mass i = .ok (chainLink n mass i) := by
  unfold linkBody
  rw [mkRect_eq _ _ _ (by norm_num)]
  rfl

theorem links_ok (n : ℕ) (mass : ℝ) (k : ℕ) : linkBodies n mass k = .ok ((List.range k).map (chainLink n mass)) := by
  induction k with
  | zero => rfl
  | succ k ih =>
    simp only [linkBodies, ih, link_ok, Except.bind, List.range_succ, List.map_append, List.map_cons, List.map_nil]

/-- C95: the bodies of `make_world`. -/
theorem chain_bodies (n : ℕ) (hn : 1 ≤ n) (mass : ℝ) : chainBodies n mass = .ok (chainList n mass) := by
  unfold chainBodies
  rw [links_ok]
  simp only [Except.bind]
  have : projectile ((List.range n).map (chainLink n mass)) = chainBall n := by
    unfold projectile chainBall
    have h : (n - 1) < n := by omega
    have : bodyAt ((List.range n).map (chainLink n mass)) (n - 1) = chainLink n mass (n - 1) := by
      simp [bodyAt, List.getD_eq_getElem?_getD, h]
    rw [List.length_map, List.length_range, this]
    rfl
  rw [this]
  rfl

theorem link_pos (n : ℕ) (mass : ℝ) (i : ℕ) : (chainLink n mass i).pos = ((300 : ℝ), 50 + 50 * (i : ℝ)) := rfl

/-! ## The joints -/

theorem chain_joint_zero (n : ℕ) (mass : ℝ) (hn : 1 ≤ n) : (chainJoint (chainList n mass) 0).kind = .revolute ∧
    (chainJoint (chainList n mass) 0).i1 = 0 ∧ (chainJoint (chainList n mass) 0).i2 = none ∧
    (chainJoint (chainList n mass) 0).pos1 = (0, -20) := by
  refine ⟨rfl, rfl, rfl, ?_⟩
  show ((300 : ℝ), (30 : ℝ)) - (bodyAt (chainList n mass) 0).pos = _
  rw [chain_link n mass 0 hn, link_pos]
  ext <;> norm_num

theorem chain_joint_succ (n : ℕ) (mass : ℝ) (i : ℕ) (hi : i + 1 < n) :
    (chainJoint (chainList n mass) (i + 1)).kind = .revolute ∧ (chainJoint (chainList n mass) (i + 1)).i1 = i + 1 ∧
    (chainJoint (chainList n mass) (i + 1)).i2 = some i ∧ (chainJoint (chainList n mass) (i + 1)).pos1 = (0, -25) ∧
    (chainJoint (chainList n mass) (i + 1)).pos2 = (0, 25) := by
  have e : chainJoint (chainList n mass) (i + 1) = mkJoint (chainList n mass) (i + 1) (some i) (300, 25 + 50 * ((i + 1 : ℕ) : ℝ)) := rfl
  rw [e]
  refine ⟨rfl, rfl, rfl, ?_, ?_⟩
  · show ((300 : ℝ), 25 + 50 * ((i + 1 : ℕ) : ℝ)) - (bodyAt (chainList n mass) (i + 1)).pos = _
    rw [chain_link n mass (i + 1) hi, link_pos]
    ext <;> simp <;> ring
  · show ((300 : ℝ), 25 + 50 * ((i + 1 : ℕ) : ℝ)) - (bodyAt (chainList n mass) i).pos = _
    rw [chain_link n mass i (by omega), link_pos]
    ext <;> simp <;> ring

theorem chain_joint_mem {n : ℕ} {bs : List Body} {j : Joint} (h : j ∈ chainJoints n bs) : ∃ i < n, j = chainJoint bs i := by
  obtain ⟨i, hi, rfl⟩ := List.mem_map.1 h
  exact ⟨i, List.mem_range.1 hi, rfl⟩

theorem chain_joint_ok (n : ℕ) (mass : ℝ) (i : ℕ) (hi : i < n) :
    (chainJoint (chainList n mass) i).i1 = i ∧ (chainJoint (chainList n mass) i).kind = .revolute ∧
    ∀ k ∈ (chainJoint (chainList n mass) i).i2, k + 1 = i := by
  cases i with
  | zero =>
    obtain ⟨h1, h2, h3, -⟩ := chain_joint_zero n mass hi
    rw [h3]
    exact ⟨h2, h1, by simp⟩
  | succ i =>
    obtain ⟨h1, h2, h3, -⟩ := chain_joint_succ n mass i hi
    rw [h3]
    exact ⟨h2, h1, by simp⟩

theorem mkJoint_fix (bs : List Body) (i1 : ℕ) (i2 : Option ℕ) (pos : V2) :
    (mkJoint bs i1 i2 pos).update_pos bs = mkJoint bs i1 i2 pos := by
  have h := C01_polar_roundtrip (pos - (bodyAt bs i1).pos) true
  have e : (bodyAt bs i1).pos + (pos - (bodyAt bs i1).pos) = pos := by abel
  cases i2 <;> simp only [mkJoint, Joint.update_pos, h, e]

theorem chain_joint_fix (bs : List Body) (i : ℕ) : (chainJoint bs i).update_pos bs = chainJoint bs i := by
  unfold chainJoint
  split_ifs
  · exact mkJoint_fix ..
  · exact mkJoint_fix ..

theorem chain_tree_joints (n : ℕ) (mass : ℝ) : JointTree (chainJoints n (chainList n mass)) := by
  intro k hk
  have hk' : k < n := by simpa [chainJoints] using hk
  have e : ∀ m (hm : m < (chainJoints n (chainList n mass)).length), (chainJoints n (chainList n mass))[m] = chainJoint (chainList n mass) m := by
    intro m hm
    simp [chainJoints]
  rw [e]
  obtain ⟨h1, h2, -⟩ := chain_joint_ok n mass k hk'
  refine ⟨k, Or.inl h1.symm, ?_⟩
  intro c hc m hm hcm
  rw [e m (by omega)] at hcm
  obtain ⟨g1, g2, g3⟩ := chain_joint_ok n mass m (by omega)
  simp only [held, h2, List.mem_cons, List.not_mem_nil, or_false] at hc
  simp only [touched, g2, g1, coords, List.mem_append, List.mem_cons, List.not_mem_nil, or_false] at hcm
  rcases hcm with hcm | hcm
  · omega
  · cases hi : (chainJoint (chainList n mass) m).i2 with
    | none => rw [hi] at hcm; simp at hcm
    | some q =>
      have := g3 q (by rw [hi]; rfl)
      rw [hi] at hcm
      simp only [List.mem_cons, List.not_mem_nil, or_false] at hcm
      omega

/-! ## Exclusions and forces -/

theorem range_drop (k : ℕ) (hk : 1 ≤ k) : (List.range (k + 1)).drop 1 = (List.range k).drop 1 ++ [k] := by
  rw [List.range_succ, List.drop_append_of_le_length (by simpa using hk)]

/-- C95: exactly neighbouring links are excluded from contact. -/
theorem chain_nc (n i j : ℕ) : i ∈ chainNc n j ↔ (i < n ∧ j + 1 = i) ∨ (j < n ∧ i + 1 = j) := by
  induction n with
  | zero => simp [chainNc]
  | succ n ih =>
    rcases Nat.eq_zero_or_pos n with rfl | hn
    · simp [chainNc]
      omega
    · unfold chainNc at ih ⊢
      rw [range_drop n hn, List.foldl_append, List.foldl_cons, List.foldl_nil, addNoContact_mem, ih]
      omega

/-- The force on body `i` of the chain at time `t`. -/
def chainForce (n : ℕ) (mass : ℝ) (t : ℝ) (i : ℕ) : V3 :=
  if i = n then (500 * 3 : ℝ) • hor_impulse t else if 1 ≤ i ∧ i < n then ⟨0, 0, mass / n * 100⟩ else 0

theorem add_force_attached (H : ForceHeap) (i : ℕ) (m : ℝ) (h j : ℕ) :
    (H.add_force i m h).attached j = if j = i then H.attached j ++ [h] else H.attached j := rfl

theorem add_force_obj (H : ForceHeap) (i : ℕ) (m : ℝ) (h j : ℕ) :
    (H.add_force i m h).obj j = if j = h then (H.obj j).set_body m else H.obj j := rfl

theorem chain_apply (n : ℕ) (hn : 1 ≤ n) (mass t : ℝ) (i : ℕ) (hi : i ≤ n) :
    (chainForces n mass).apply_forces i t = some (chainForce n mass t i) := by
  have key : ∀ k, k ≤ n → (∀ i, (((List.range k).drop 1).foldl (fun H i => H.add_force i (mass / n) i)
      (⟨fun h => if h = n then .external hor_impulse (500 * 3) else .gravity 100 none, fun _ => []⟩ : ForceHeap)).attached i =
        if 1 ≤ i ∧ i < k then [i] else []) ∧
      ∀ h, (((List.range k).drop 1).foldl (fun H i => H.add_force i (mass / n) i)
      (⟨fun h => if h = n then .external hor_impulse (500 * 3) else .gravity 100 none, fun _ => []⟩ : ForceHeap)).obj h =
        if h = n then .external hor_impulse (500 * 3) else if 1 ≤ h ∧ h < k then
          .gravity 100 (some ⟨0 * (mass / n) * 100, 0 * (mass / n) * 100, 1 * (mass / n) * 100⟩) else .gravity 100 none := by
    intro k
    induction k with
    | zero => intro _; constructor <;> intro i <;> simp
    | succ k ih =>
      intro hk
      rcases Nat.eq_zero_or_pos k with rfl | h0
      · constructor <;> intro i
        · rw [if_neg (by omega)]; rfl
        · rw [if_neg (show ¬ (1 ≤ i ∧ i < 0 + 1) by omega)]; rfl
      · obtain ⟨h1, h2⟩ := ih (by omega)
        rw [range_drop k h0, List.foldl_append, List.foldl_cons, List.foldl_nil]
        constructor
        · intro i
          rw [add_force_attached, h1]
          by_cases hik : i = k
          · subst hik
            rw [if_pos rfl, if_neg (by omega), if_pos (by omega)]
            rfl
          · rw [if_neg hik]
            by_cases hi : 1 ≤ i ∧ i < k
            · rw [if_pos hi, if_pos (by omega)]
            · rw [if_neg hi, if_neg (by omega)]
        · intro h
          rw [add_force_obj, h2]
          by_cases hhk : h = k
          · subst hhk
            rw [if_pos rfl, if_neg (by omega), if_neg (by omega), if_neg (by omega), if_pos (by omega)]
            rfl
          · rw [if_neg hhk]
            by_cases hhn : h = n
            · rw [if_pos hhn, if_pos hhn]
            · rw [if_neg hhn, if_neg hhn]
              by_cases hi : 1 ≤ h ∧ h < k
              · rw [if_pos hi, if_pos (by omega)]
              · rw [if_neg hi, if_neg (by omega)]
  obtain ⟨h1, h2⟩ := key n le_rfl
  unfold chainForces chainForce
  generalize ((List.range n).drop 1).foldl (fun H i => H.add_force i (mass / n) i)
      (⟨fun h => if h = n then .external hor_impulse (500 * 3) else .gravity 100 none, fun _ => []⟩ : ForceHeap) = H at h1 h2 ⊢
  unfold ForceHeap.apply_forces
  rw [add_force_attached, h1]
  by_cases hin : i = n
  · rw [if_pos hin, if_pos hin, if_neg (show ¬ (1 ≤ i ∧ i < n) by omega)]
    rw [if_neg (by simp)]
    simp only [List.nil_append, List.map_cons, List.map_nil, add_force_obj, if_true, h2, Force.set_body, Force.force, sumForces]
    congr 1
    apply V3.ext <;> simp
  · rw [if_neg hin, if_neg hin]
    by_cases hi1 : 1 ≤ i ∧ i < n
    · rw [if_pos hi1, if_pos hi1, if_neg (by simp)]
      simp only [List.map_cons, List.map_nil, add_force_obj, if_neg hin, h2, if_pos hi1, Force.force, sumForces]
      congr 1
      apply V3.ext <;> simp
    · rw [if_neg hi1, if_neg hi1]
      simp

theorem chain_forceCat (n : ℕ) (hn : 1 ≤ n) (mass t : ℝ) :
    forceCat (chainForces n mass) t (n + 1) = .ok ((List.range (n + 1)).map (chainForce n mass t)) := by
  have key : ∀ k, k ≤ n + 1 → forceCat (chainForces n mass) t k = .ok ((List.range k).map (chainForce n mass t)) := by
    intro k
    induction k with
    | zero => intro _; rfl
    | succ k ih =>
      intro hk
      unfold forceCat
      rw [ih (by omega), chain_apply n hn mass t k (by omega)]
      simp [List.range_succ]
  exact key _ le_rfl

/-! ## The contact search before the impact -/

/-- The chain hangs straight down and the projectile is at `x`. -/
structure Hanging (n : ℕ) (mass x : ℝ) (bs : List Body) : Prop where
  posed : Posed (chainList n mass) bs
  link : ∀ i < n, (bodyAt bs i).p = ⟨0, 300, 50 + 50 * i⟩
  ball : (bodyAt bs n).p = ⟨0, x, 50 + 50 * ((n - 1 : ℕ) : ℝ)⟩

theorem hanging_start (n : ℕ) (mass : ℝ) : Hanging n mass 50 (chainList n mass) := by
  refine ⟨Posed.refl _, ?_, ?_⟩
  · intro i hi
    rw [chain_link n mass i hi]
    rfl
  · rw [chain_ball]
    rfl

theorem hanging_link {n : ℕ} {mass x : ℝ} {bs : List Body} (h : Hanging n mass x bs) (i : ℕ) (hi : i < n) :
    ∃ ops, bodyAt bs i = (chainLink n mass i).run ops := by
  obtain ⟨ops, ho⟩ := h.posed.2 i (by rw [chain_length]; omega)
  exact ⟨ops, by rw [ho, chain_link n mass i hi]⟩

theorem hanging_ball {n : ℕ} {mass x : ℝ} {bs : List Body} (h : Hanging n mass x bs) :
    ∃ ops, bodyAt bs n = (chainBall n).run ops := by
  obtain ⟨ops, ho⟩ := h.posed.2 n (by rw [chain_length]; omega)
  exact ⟨ops, by rw [ho, chain_ball]⟩

theorem link_region {n : ℕ} {mass x : ℝ} {bs : List Body} (h : Hanging n mass x bs) (i : ℕ) (hi : i < n) (z : V2)
    (hz : z ∈ geomRegion (bodyAt bs i).geom) : |z.1 - 300| ≤ 10.1 ∧ |z.2 - (50 + 50 * i)| ≤ 30.1 := by
  obtain ⟨ops, ho⟩ := hanging_link h i hi
  have hp := h.link i hi
  rw [ho] at hz hp
  obtain ⟨w, hw, e⟩ := (rect_geomRegion (link_ok n mass i) ops z).1 hz
  have hr : ((chainLink n mass i).run ops).rot = 0 := by unfold Body.rot; rw [hp]
  have hx : ((chainLink n mass i).run ops).pos = ((300 : ℝ), 50 + 50 * (i : ℝ)) := by unfold Body.pos; rw [hp]; rfl
  rw [hr, hx] at e
  have e1 : w = z - ((300 : ℝ), 50 + 50 * (i : ℝ)) := by
    rw [← e]
    unfold rot
    simp
  obtain ⟨h1, h2⟩ := hw
  rw [e1] at h1 h2
  simp only [Prod.fst_sub, Prod.snd_sub] at h1 h2
  norm_num at h1 h2 ⊢
  exact ⟨h1, h2⟩

theorem ball_region {n : ℕ} {mass x : ℝ} {bs : List Body} (h : Hanging n mass x bs) (z : V2)
    (hz : z ∈ geomRegion (bodyAt bs n).geom) : |z.1 - x| ≤ 20.1 := by
  obtain ⟨ops, ho⟩ := hanging_ball h
  have hp := h.ball
  rw [ho] at hz hp
  have hk : ((chainBall n).run ops).geom.kind = .sphere (20 + 0.1) := run_geomKind _ ops
  have hg := run_geom_pos (chainBall n) rfl ops
  have hx : ((chainBall n).run ops).pos = (x, 50 + 50 * ((n - 1 : ℕ) : ℝ)) := by unfold Body.pos; rw [hp]; rfl
  unfold geomRegion at hz
  rw [hk, hg, hx] at hz
  have hz : Spec.dist z (x, 50 + 50 * ((n - 1 : ℕ) : ℝ)) ≤ 20 + 0.1 := hz
  have : |z.1 - x| ≤ Spec.dist z (x, 50 + 50 * ((n - 1 : ℕ) : ℝ)) := by
    unfold Spec.dist len
    refine Real.abs_le_sqrt ?_
    simp only [Prod.fst_sub, Prod.snd_sub]
    nlinarith [sq_nonneg (z.2 - (50 + 50 * ((n - 1 : ℕ) : ℝ)))]
  norm_num at hz ⊢
  linarith

theorem hanging_plain {n : ℕ} {mass x : ℝ} {bs : List Body} (h : Hanging n mass x bs) : ∀ b ∈ bs, PlainBody b := by
  intro b hb
  obtain ⟨i, hi, rfl⟩ := List.getElem_of_mem hb
  have hl : bs.length = n + 1 := by rw [h.posed.1, chain_length]
  have e : bs[i] = bodyAt bs i := by simp [bodyAt, List.getD_eq_getElem?_getD, hi]
  rw [e]
  by_cases hin : i = n
  · subst hin
    obtain ⟨ops, ho⟩ := hanging_ball h
    rw [ho]
    exact Or.inl ⟨_, _, _, ops, rfl, by norm_num⟩
  · obtain ⟨ops, ho⟩ := hanging_link h i (by omega)
    rw [ho]
    exact Or.inr ⟨_, _, _, _, ops, link_ok n mass i, rfl, len_le_of (by norm_num) (by norm_num)⟩

theorem link_alive (n : ℕ) (mass : ℝ) (i : ℕ) (ops : List BodyOp) : Alive ((chainLink n mass i).run ops) :=
  ⟨_, ops, .rect _ _ _ _ (link_ok n mass i) (by norm_num) (by norm_num), rfl⟩

/-- C95: while the chain hangs and the projectile is more than the margins away from it, the library's contact search
returns and finds no contact. -/
theorem chain_search {n : ℕ} {mass x : ℝ} {bs : List Body} (h : Hanging n mass x bs) (hx : x < 269.8) (fuel : ℕ)
    (hfuel : 66 ≤ fuel) (pairs : List Body → List (ℕ × ℕ))
    (hp : ∀ bs, ∀ p ∈ pairs bs, p.1 < bs.length ∧ p.2 < bs.length ∧ p.1 ≠ p.2) (f : Finder) :
    ∃ f', rejectNan (diffCollide fuel (chainNc n) pairs) (1 / 10) f bs = .ok (f', []) := by
  obtain ⟨⟨f', cs⟩, hr⟩ := C94_search_total fuel hfuel (chainNc n) pairs (1 / 10) f bs
    (fun p hm => ⟨(hp bs p hm).1, (hp bs p hm).2.1⟩) (hanging_plain h)
  have hl : bs.length = n + 1 := by rw [h.posed.1, chain_length]
  have hcs : cs = [] := by
    by_contra hne
    obtain ⟨c, hc⟩ := List.exists_mem_of_ne_nil _ hne
    unfold diffCollide at hr
    cases ha : handleAll fuel (chainNc n) (1 / 10) bs (pairs bs) f with
    | running => rw [ha] at hr; cases hr
    | raised e => rw [ha] at hr; cases hr
    | done r =>
      rw [ha] at hr
      injection hr with hr
      subst hr
      obtain ⟨p, hpm, g, g', cs', hx', hpair, hc'⟩ := handleAll_mem ha c hc
      have hne' : cs' ≠ [] := List.ne_nil_of_mem hc'
      obtain ⟨h1, h2, h12⟩ := hp bs p hpm
      rw [chain_nc] at hx'
      by_cases hb : p.1 = n ∨ p.2 = n
      · obtain ⟨ob, hob⟩ := hanging_ball h
        have hcirc : ((chainBall n).run ob).isCircle = true := by rw [run_shape]; rfl
        have hrad : ((chainBall n).run ob).rad = 20 := by
          unfold Body.rad
          rw [run_circle (chainBall n) rfl ob]
        have heps : ((chainBall n).run ob).eps = 0.1 := run_eps _ ob
        have hal : Alive ((chainBall n).run ob) := ⟨_, ob, .circle .., rfl⟩
        have lrad : ∀ i ops, 0 ≤ ((chainLink n mass i).run ops).rad := by
          intro i ops
          have hs : ((chainLink n mass i).run ops).isCircle = false := by rw [run_shape]; rfl
          unfold Body.isCircle at hs
          unfold Body.rad
          split <;> simp_all
        have leps : ∀ i ops, ((chainLink n mass i).run ops).eps = 0.1 := fun i ops => run_eps _ ops
        rcases hb with hb | hb
        · obtain ⟨ol, hol⟩ := hanging_link h p.2 (by omega)
          have hov := C09_circle_contact_presented fuel (1 / 10) (by norm_num) bs g g' p.1 p.2 cs' hpair hne'
            (by rw [hb, hob]; exact hal) (by rw [hol]; exact link_alive ..) (by rw [hb, hob, hrad]; norm_num)
            (by rw [hol]; exact lrad ..) (by rw [hb, hob, heps]; norm_num) (by rw [hol, leps]; norm_num)
            (by rw [hb, hob, hol, heps, leps]; norm_num) (by left; rw [hb, hob]; exact hcirc)
          obtain ⟨⟨z, hz, y, hy, hzy⟩, -⟩ := hov
          rw [hb] at hz
          have k1 := abs_le.1 (ball_region h z hz)
          have k2 := abs_le.1 (link_region h p.2 (by omega) y hy).1
          norm_num at k1 k2 hx
          linarith [k1.2, k2.1]
        · obtain ⟨ol, hol⟩ := hanging_link h p.1 (by omega)
          have hov := C09_circle_contact_presented fuel (1 / 10) (by norm_num) bs g g' p.1 p.2 cs' hpair hne'
            (by rw [hol]; exact link_alive ..) (by rw [hb, hob]; exact hal) (by rw [hol]; exact lrad ..)
            (by rw [hb, hob, hrad]; norm_num) (by rw [hol, leps]; norm_num) (by rw [hb, hob, heps]; norm_num)
            (by rw [hb, hob, hol, heps, leps]; norm_num) (by right; rw [hb, hob]; exact hcirc)
          obtain ⟨⟨z, hz, y, hy, hzy⟩, -⟩ := hov
          rw [hb] at hy
          have k1 := abs_le.1 (ball_region h y hy)
          have k2 := abs_le.1 (link_region h p.1 (by omega) z hz).1
          norm_num at k1 k2 hx
          linarith [k1.2, k2.1]
      · push Not at hb
        have l1 : p.1 < n := by omega
        have l2 : p.2 < n := by omega
        obtain ⟨o1, ho1⟩ := hanging_link h p.1 l1
        obtain ⟨o2, ho2⟩ := hanging_link h p.2 l2
        have c1 : (bodyAt bs p.1).isCircle = false := by rw [ho1, run_shape]; rfl
        have c2 : (bodyAt bs p.2).isCircle = false := by rw [ho2, run_shape]; rfl
        unfold handlePair at hpair
        simp only [c1, c2, Bool.false_eq_true, and_self, or_self, if_false] at hpair
        cases hh : hullHull (1 / 10) (bodyAt bs p.1).pos (bodyAt bs p.2).pos (bodyAt bs p.1).verts (bodyAt bs p.2).verts
            p.1 p.2 g with
        | error e => rw [hh] at hpair; cases hpair
        | ok r =>
          rw [hh] at hpair
          injection hpair with hpair
          obtain ⟨-, hpair⟩ := Prod.ext_iff.1 hpair
          have hpts : r.2 ≠ [] := by
            rintro h0
            apply hne'
            exact (show _ = cs' from hpair).symm.trans (by simp [h0])
          rw [ho1, ho2] at hh
          have hov := C09_rect_contact_presented _ _ _ _ _ _ _ _ (link_ok n mass p.1) (link_ok n mass p.2) (by norm_num)
            (by norm_num) (by norm_num) (by norm_num) o1 o2 (1 / 10) (by norm_num) (by norm_num) (by norm_num) p.1 p.2 g r.1
            r.2 hh hpts
          obtain ⟨-, z, hz, y, hy, hzy⟩ := hov
          rw [← ho1] at hz
          rw [← ho2] at hy
          have k1 := abs_le.1 (link_region h p.1 l1 z hz).2
          have k2 := abs_le.1 (link_region h p.2 l2 y hy).2
          have hd : p.1 + 2 ≤ p.2 ∨ p.2 + 2 ≤ p.1 := by omega
          norm_num at k1 k2
          rcases hd with hd | hd
          · have : (p.1 : ℝ) + 2 ≤ p.2 := by exact_mod_cast hd
            linarith [k1.2, k2.1]
          · have : (p.2 : ℝ) + 2 ≤ p.1 := by exact_mod_cast hd
            linarith [k1.1, k2.2]
  subst hcs
  refine ⟨f', ?_⟩
  unfold rejectNan
  rw [hr]
  rfl

end LcpPhysics
