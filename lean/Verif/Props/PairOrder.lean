import Verif.Spec.PairOrder
import Verif.Props.Lockstep
import Verif.Props.Sat
import Mathlib.Tactic.NormNum.RealSqrt

/-!
# C113: contacts and the order in which the two bodies of a pair are presented
-/

noncomputable section

namespace LcpPhysics

open Spec

/-- The two body indices of a point of contact exchanged. -/
def Pt.reseen (p : Pt) : Pt := { normal := -p.normal, p1 := p.p2, p2 := p.p1, pen := p.pen, nan := p.nan }

theorem slipVel_flipped (c : Contact) (v : Vec) : slipVel (flipped c) v = slipVel c v := by
  simp only [slipVel, flipped, contactVel, Spec.inner, tangent, Prod.fst_sub, Prod.snd_sub, Prod.fst_neg, Prod.snd_neg]
  ring

theorem reseen_same {c c' : Contact} (h : Reseen c c') (bs : List Body) (v : Vec) :
    normalVel c' v = normalVel c v ∧ slipVel c' v = slipVel c v ∧
    meanRestitution bs c' = meanRestitution bs c ∧ meanFriction bs c' = meanFriction bs c := by
  rcases h with rfl | rfl
  · exact ⟨rfl, rfl, rfl, rfl⟩
  · exact ⟨normalVel_flipped c v, slipVel_flipped c v, meanRestitution_flipped bs c, meanFriction_flipped bs c⟩

/-- C113: the contact law does not see which body of a contact is the first one: the same velocities
and the same impulses, friction included, obey it for contacts seen from either body. -/
theorem C113_law (bs : List Body) (js : List Joint) (cs cs' : List Contact) (hc : List.Forall₂ Reseen cs cs')
    (f : ℕ → V3) (v v' l : Vec) (pn a b g : ℕ → ℝ) (h : ContactLaw bs js cs f v v' l pn a b g) :
    ContactLaw bs js cs' f v v' l pn a b g := by
  have hl : cs.length = cs'.length := hc.length_eq
  have hget : ∀ (i : ℕ) (h : i < cs'.length), Reseen (cs[i]'(hl ▸ h)) cs'[i] := fun i h => hc.get _ h
  refine ⟨?_, h.joints, ?_, ?_, ?_, ?_⟩
  · intro u
    rw [h.dynamics u]
    congr 1
    unfold contactPower
    rw [hl]
    refine Finset.sum_congr rfl fun i hi => ?_
    have hi' : i < cs'.length := Finset.mem_range.1 hi
    rw [List.getElem?_eq_getElem hi', List.getElem?_eq_getElem (hl ▸ hi')]
    obtain ⟨h1, h2, -, -⟩ := reseen_same (hget i hi') bs u
    simp only [h1, h2]
  · intro i hi; exact h.nonneg i (hl ▸ hi)
  · intro i hi
    obtain ⟨h1, -, h3, -⟩ := reseen_same (hget i hi) bs v'
    obtain ⟨h1', -, -, -⟩ := reseen_same (hget i hi) bs v
    rw [h1, h1', h3]; exact h.restitution i (hl ▸ hi)
  · intro i hi
    obtain ⟨-, h2, -, -⟩ := reseen_same (hget i hi) bs v'
    rw [h2]; exact h.slip i (hl ▸ hi)
  · intro i hi
    obtain ⟨-, -, -, h4⟩ := reseen_same (hget i hi) bs v'
    rw [h4]; exact h.cone i (hl ▸ hi)

/-! ## Pairs with a circle -/

theorem circleCircle_reseen (eps r1 r2 : ℝ) (p1 p2 : V2) :
    circleCircle eps r2 r1 p2 p1 = (circleCircle eps r1 r2 p1 p2).map Pt.reseen := by
  have hn : nrm (p2 - p1) = nrm (p1 - p2) := by
    unfold nrm
    congr 1
    simp only [Prod.fst_sub, Prod.snd_sub]; ring
  unfold circleCircle
  simp only [hn, add_comm r2 r1]
  split_ifs
  · rfl
  · simp only [List.map_cons, List.map_nil, Pt.reseen]
    congr 1
    have : p2 - p1 = -(p1 - p2) := by abel
    rw [this, smul_neg]
    simp only [smul_neg, neg_neg]

theorem toPt_reseen (c : CHull) (flip : Bool) : c.toPt (!flip) = (c.toPt flip).reseen := by
  cases flip <;> simp [CHull.toPt, Pt.reseen]

/-- C113: when one of the two bodies is a circle, presenting the pair in the other order gives the
same contacts seen from the other body, the same hidden state, and the same failure, if any. -/
theorem C113_circle_pair (fuel : ℕ) (eps : ℝ) (bs : List Body) (f : Finder) (i1 i2 : ℕ)
    (h : (bodyAt bs i1).isCircle = true ∨ (bodyAt bs i2).isCircle = true) :
    handlePair fuel eps bs f i2 i1 =
      (handlePair fuel eps bs f i1 i2).bind fun r => .done (r.1, r.2.map flipped) := by
  unfold handlePair
  by_cases h1 : (bodyAt bs i1).isCircle = true <;> by_cases h2 : (bodyAt bs i2).isCircle = true
  · simp only [h1, h2, and_self, if_true, Run.bind]
    rw [circleCircle_reseen]
    simp only [List.map_map]
    rfl
  · have h2' : (bodyAt bs i2).isCircle = false := by simpa using h2
    simp only [h1, h2', Bool.false_eq_true, and_false, false_and, if_false, or_false, false_or, if_true]
    cases circleHull fuel eps (bodyAt bs i1).rad (bodyAt bs i1).pos (bodyAt bs i2).pos (bodyAt bs i2).verts (f.rnd 0)
        (f.sat i2) with
    | running => rfl
    | raised e => rfl
    | done r =>
      simp only [Run.bind, List.map_map]
      rfl
  · have h1' : (bodyAt bs i1).isCircle = false := by simpa using h1
    simp only [h1', h2, Bool.false_eq_true, and_false, false_and, if_false, or_false, false_or, if_true]
    cases circleHull fuel eps (bodyAt bs i2).rad (bodyAt bs i2).pos (bodyAt bs i1).pos (bodyAt bs i1).verts (f.rnd 0)
        (f.sat i1) with
    | running => rfl
    | raised e => rfl
    | done r =>
      simp only [Run.bind, List.map_map]
      congr 2
      refine List.map_congr_left fun c _ => ?_
      simp [Function.comp, CHull.toPt, flipped]
  · exact absurd h (by simp [h1, h2])

/-- C113: so for a list of pairs each with a circle, the broad phase may present every pair in either
order: the contact search ends the same way, with the same hidden state and the same contacts, each
seen from one or the other body. -/
theorem C113_scene (fuel : ℕ) (nc : ℕ → List ℕ) (hnc : ∀ i j, i ∈ nc j ↔ j ∈ nc i) (eps : ℝ) (bs : List Body)
    (ps qs : List (ℕ × ℕ)) (hpq : List.Forall₂ Reordered ps qs)
    (hc : ∀ p ∈ ps, (bodyAt bs p.1).isCircle = true ∨ (bodyAt bs p.2).isCircle = true) (f : Finder) :
    (∀ e, handleAll fuel nc eps bs ps f = .raised e → handleAll fuel nc eps bs qs f = .raised e) ∧
    (∀ f' cs, handleAll fuel nc eps bs ps f = .done (f', cs) →
      ∃ cs', handleAll fuel nc eps bs qs f = .done (f', cs') ∧ List.Forall₂ Reseen cs cs') := by
  have hmap : ∀ cs : List Contact, List.Forall₂ Reseen cs (cs.map flipped) := by
    intro cs
    induction cs with
    | nil => exact .nil
    | cons c cs ih => exact .cons (Or.inr rfl) ih
  have hself : ∀ cs : List Contact, List.Forall₂ Reseen cs cs := by
    intro cs
    induction cs with
    | nil => exact .nil
    | cons c cs ih => exact .cons (Or.inl rfl) ih
  have hone : ∀ p ∈ ps, ∀ q, Reordered p q → ∀ g : Finder,
      (handle fuel nc eps bs g q.1 q.2 = handle fuel nc eps bs g p.1 p.2) ∨
      (handle fuel nc eps bs g q.1 q.2 = (handle fuel nc eps bs g p.1 p.2).bind fun r => .done (r.1, r.2.map flipped)) := by
    intro p hp q hq g
    rcases hq with rfl | rfl
    · exact Or.inl rfl
    · right
      simp only [handle]
      by_cases h : p.1 ∈ nc p.2
      · rw [if_pos h, if_pos ((hnc _ _).1 h)]; rfl
      · rw [if_neg h, if_neg (fun h' => h ((hnc _ _).2 h'))]
        exact C113_circle_pair fuel eps bs g p.1 p.2 (hc p hp)
  induction hpq generalizing f with
  | nil =>
    refine ⟨fun e h => h, fun f' cs h => ⟨cs, h, hself cs⟩⟩
  | @cons p q ps qs hq hrest ih =>
    have ih' := fun g => ih (fun p hp => hc p (List.mem_cons_of_mem _ hp)) g
      (fun p hp => hone p (List.mem_cons_of_mem _ hp))
    have hp := hone p List.mem_cons_self q hq f
    unfold handleAll
    cases hh : handle fuel nc eps bs f p.1 p.2 with
    | running =>
      rw [hh] at hp
      refine ⟨fun e h => ?_, fun f' cs h => ?_⟩ <;> simp [Run.bind] at h
    | raised e' =>
      rw [hh] at hp
      have hq' : handle fuel nc eps bs f q.1 q.2 = .raised e' := by
        rcases hp with h | h
        · exact h
        · exact h
      rw [hq']
      refine ⟨fun e h => h, fun f' cs h => ?_⟩
      simp [Run.bind] at h
    | done r =>
      rw [hh] at hp
      obtain ⟨rs, hq', hrs⟩ : ∃ rs, handle fuel nc eps bs f q.1 q.2 = .done (r.1, rs) ∧ List.Forall₂ Reseen r.2 rs := by
        rcases hp with h | h
        · exact ⟨r.2, h, hself _⟩
        · exact ⟨_, h, hmap _⟩
      rw [hq']
      simp only [Run.bind]
      cases ha : handleAll fuel nc eps bs ps r.1 with
      | running =>
        refine ⟨fun e h => ?_, fun f' cs h => ?_⟩ <;> simp at h
      | raised e' =>
        have := (ih' r.1).1 e' ha
        rw [this]
        exact ⟨fun e h => h, fun f' cs h => by simp at h⟩
      | done s =>
        obtain ⟨cs', h1, h2⟩ := (ih' r.1).2 s.1 s.2 (by rw [ha])
        rw [h1]
        refine ⟨fun e h => by simp at h, fun f' cs h => ?_⟩
        simp only [Run.done.injEq, Prod.mk.injEq] at h
        obtain ⟨rfl, rfl⟩ := h
        exact ⟨_, rfl, List.rel_append hrs h2⟩

/-! ## Two hulls -/

theorem emit_reseen (eps : ℝ) (n rv rp ip : V2) (l : List (Option V2)) (b : Bool) :
    emitPts eps n rv rp ip (!b) l = (emitPts eps n rv rp ip b l).map (List.map Pt.reseen) := by
  induction l with
  | nil => rfl
  | cons v vs ih =>
    cases v with
    | none => rfl
    | some v =>
      unfold emitPts
      rw [ih]
      cases emitPts eps n rv rp ip b vs with
      | error e => rfl
      | ok rest =>
        simp only [Except.map]
        cases b <;> split_ifs <;> simp_all [Pt.reseen]

theorem manifold_reseen (eps : ℝ) (rp ip : V2) (P Q : List V2) (nn : V2) (vx : ℕ) (en : ℝ) (ed : ℕ) (b : Bool) :
    manifold eps rp ip P Q nn vx en ed (!b) = (manifold eps rp ip P Q nn vx en ed b).map (List.map Pt.reseen) := by
  unfold manifold
  simp only
  split
  · exact emit_reseen ..
  · rfl
  · rfl
  · rfl

/-- C113: two hulls presented in the other order: unless the two separations are exactly equal, the
contacts are the same seen from the other body. -/
theorem C113_hull_pair (eps : ℝ) (p1 p2 : V2) (P Q : List V2) (i1 i2 : ℕ) (hi : i1 ≠ i2) (f : Finder) (c1 c2 : Sep)
    (h1 : test_separations eps p1 p2 P Q (f.sat i1) = .ok c1) (h2 : test_separations eps p2 p1 Q P (f.sat i2) = .ok c2)
    (hne : c1.dist ≠ c2.dist ∨ eps < c1.dist ∨ eps < c2.dist) :
    (hullHull eps p2 p1 Q P i2 i1 f).map Prod.snd =
      (hullHull eps p1 p2 P Q i1 i2 f).map fun r => r.2.map Pt.reseen := by
  have hs1 : (f.setSat i1 c1.edge).sat i2 = f.sat i2 := by simp [Finder.setSat, hi.symm]
  have hs2 : (f.setSat i2 c2.edge).sat i1 = f.sat i1 := by simp [Finder.setSat, hi]
  unfold hullHull
  simp only [h1, h2, hs1, hs2]
  by_cases g1 : c1.dist > eps <;> by_cases g2 : c2.dist > eps
  · simp only [g1, g2, if_true]; rfl
  · simp only [g1, g2, if_true, if_false]; rfl
  · simp only [g1, g2, if_true, if_false]; rfl
  · simp only [g1, g2, if_false]
    have hne' : c1.dist ≠ c2.dist := by
      rcases hne with h | h | h
      · exact h
      · exact absurd h g1
      · exact absurd h g2
    rcases lt_or_gt_of_ne hne' with h | h
    · rw [if_neg (not_lt.2 h.le), if_pos h]
      cases c2 with
      | gap => rfl
      | best d a b nn vx en ed =>
        simp only
        rw [show (true : Bool) = !false from rfl, manifold_reseen]
        cases manifold eps p2 p1 Q P nn vx en ed false <;> rfl
    · rw [if_pos h, if_neg (not_lt.2 h.le)]
      cases c1 with
      | gap => rfl
      | best d a b nn vx en ed =>
        simp only
        rw [show (false : Bool) = !true from rfl, manifold_reseen]
        cases manifold eps p1 p2 P Q nn vx en ed true <;> rfl

/-- C113: the same for a pair of hulls of a scene, with the hidden state. -/
theorem C113_hull_contacts (fuel : ℕ) (eps : ℝ) (bs : List Body) (f f' : Finder) (i1 i2 : ℕ) (hi : i1 ≠ i2)
    (hh : (bodyAt bs i1).isCircle = false ∧ (bodyAt bs i2).isCircle = false) (c1 c2 : Sep)
    (h1 : test_separations eps (bodyAt bs i1).pos (bodyAt bs i2).pos (bodyAt bs i1).verts (bodyAt bs i2).verts (f.sat i1) = .ok c1)
    (h2 : test_separations eps (bodyAt bs i2).pos (bodyAt bs i1).pos (bodyAt bs i2).verts (bodyAt bs i1).verts (f.sat i2) = .ok c2)
    (hne : c1.dist ≠ c2.dist ∨ eps < c1.dist ∨ eps < c2.dist) (cs : List Contact)
    (h : handlePair fuel eps bs f i1 i2 = .done (f', cs)) :
    ∃ f'', handlePair fuel eps bs f i2 i1 = .done (f'', cs.map flipped) ∧
      (c1.dist ≤ eps → c2.dist ≤ eps → f'' = f') := by
  have key := C113_hull_pair eps _ _ _ _ i1 i2 hi f c1 c2 h1 h2 hne
  unfold handlePair at h ⊢
  simp only [hh.1, hh.2, Bool.false_eq_true, and_self, or_self, if_false] at h ⊢
  have hs1 : (f.setSat i1 c1.edge).sat i2 = f.sat i2 := by simp [Finder.setSat, hi.symm]
  have hs2 : (f.setSat i2 c2.edge).sat i1 = f.sat i1 := by simp [Finder.setSat, hi]
  have hst : ∀ g pts g' pts', hullHull eps (bodyAt bs i1).pos (bodyAt bs i2).pos (bodyAt bs i1).verts
      (bodyAt bs i2).verts i1 i2 f = .ok (g, pts) → hullHull eps (bodyAt bs i2).pos (bodyAt bs i1).pos (bodyAt bs i2).verts
      (bodyAt bs i1).verts i2 i1 f = .ok (g', pts') → c1.dist ≤ eps → c2.dist ≤ eps → g' = g := by
    intro g pts g' pts' e1 e2 k1 k2
    have hcomm : (f.setSat i2 c2.edge).setSat i1 c1.edge = (f.setSat i1 c1.edge).setSat i2 c2.edge := by
      unfold Finder.setSat
      congr 1
      funext j
      by_cases hj1 : j = i1 <;> by_cases hj2 : j = i2 <;> simp [hj1, hj2, hi, hi.symm]
    unfold hullHull at e1 e2
    simp only [h1, h2, hs1, hs2, if_neg (not_lt.2 k1), if_neg (not_lt.2 k2)] at e1 e2
    have a1 : g = (f.setSat i1 c1.edge).setSat i2 c2.edge := by
      split_ifs at e1 <;> split at e1 <;> first | cases e1 | (split at e1 <;> cases e1; rfl)
    have a2 : g' = (f.setSat i2 c2.edge).setSat i1 c1.edge := by
      split_ifs at e2 <;> split at e2 <;> first | cases e2 | (split at e2 <;> cases e2; rfl)
    rw [a1, a2, hcomm]
  cases e1 : hullHull eps (bodyAt bs i1).pos (bodyAt bs i2).pos (bodyAt bs i1).verts (bodyAt bs i2).verts i1 i2 f with
  | error e => rw [e1] at h; cases h
  | ok r =>
    cases e2 : hullHull eps (bodyAt bs i2).pos (bodyAt bs i1).pos (bodyAt bs i2).verts (bodyAt bs i1).verts i2 i1 f with
    | error e => rw [e1, e2] at key; cases key
    | ok r' =>
      rw [e1] at h
      rw [e1, e2] at key
      simp only [Except.map, Run.ofExcept, Run.done.injEq, Prod.mk.injEq, Except.ok.injEq] at h key ⊢
      refine ⟨r'.1, ⟨rfl, ?_⟩, fun k1 k2 => ?_⟩
      · rw [← h.2, key, List.map_map, List.map_map]
        rfl
      · rw [← h.1]
        exact hst r.1 r.2 r'.1 r'.2 e1 e2 k1 k2

/-! ## Ties -/

/-- An upright square, and a larger one turned so that its sides have slopes 3/4 and -4/3. -/
def tieSmall : List V2 := [(1, 1), (-1, 1), (-1, -1), (1, -1)]
def tieLarge : List V2 := [(7, 1), (-1, 7), (-7, -1), (1, -7)]

theorem tie_first : test_separations (1 / 10) 0 (7, 3 / 2) tieSmall tieLarge 0 =
    .ok (.best (-1) (1, 1 / 2) (-6, -1) (-1, 0) 2 2 3) := by
  norm_num [test_separations, satOrder, sepStep, tieSmall, tieLarge, nrm, vget, List.range_succ, get_support, supportLoop,
    dot, left_orthogonal]

theorem tie_second : test_separations (1 / 10) (7, 3 / 2) 0 tieLarge tieSmall 0 =
    .ok (.best (-1) (-(33 / 5), -(13 / 10)) (2 / 5, 1 / 5) (3 / 5, 4 / 5) 0 10 2) := by
  norm_num [test_separations, satOrder, sepStep, tieSmall, tieLarge, nrm, vget, List.range_succ, get_support, supportLoop,
    dot, left_orthogonal]

theorem tie_manifold1 : manifold (1 / 10) 0 (7, 3 / 2) tieSmall tieLarge (-1, 0) 2 2 3 true =
    .ok [{ normal := (-1, 0), p1 := (1, 1 / 2), p2 := (-6, -1), pen := 1 },
      { normal := (-1, 0), p1 := (1, 1), p2 := (-6, -(1 / 2)), pen := 5 / 8 }] := by
  norm_num [manifold, get_incident_edge, incStep, clip_segment_to_line, emitPts, tieSmall, tieLarge, nrm, vget, dot, left_orthogonal]

theorem tie_manifold2 : manifold (1 / 10) (7, 3 / 2) 0 tieLarge tieSmall (3/5, 4/5) 0 10 2 true =
    .ok [{ normal := (3 / 5, 4 / 5), p1 := (-(33 / 5), -(13 / 10)), p2 := (2 / 5, 1 / 5), pen := 1 },
      { normal := (3 / 5, 4 / 5), p1 := (-7, -1), p2 := (0, 1 / 2), pen := 5 / 8 }] := by
  norm_num [manifold, get_incident_edge, incStep, clip_segment_to_line, emitPts, tieSmall, tieLarge, nrm, vget, dot, left_orthogonal]

/-- The two squares as bodies without friction and restitution. -/
def tieBodies : List Body :=
  [{ p := 0, v := 0, mass := 1, ang_inertia := 1, restitution := 0, fric_coeff := 0, eps := 1 / 10,
     shape := .rect (2, 2) tieSmall, geom := { kind := .box (2, 2), pos := 0, quat := none } },
   { p := ⟨0, 7, 3 / 2⟩, v := ⟨0, -1, 0⟩, mass := 1, ang_inertia := 1, restitution := 0, fric_coeff := 0, eps := 1 / 10,
     shape := .rect (10, 10) tieLarge, geom := { kind := .box (10, 10), pos := (7, 3 / 2), quat := none } }]

/-- Hidden state of a new world. -/
def newFinder : Finder := { sat := fun _ => 0, rnd := fun _ => 0 }

/-- The contacts found for the pair `(0, 1)` and for the pair `(1, 0)`. -/
def tieContacts1 : List Contact :=
  [{ normal := (-1, 0), p1 := (1, 1 / 2), p2 := (-6, -1), pen := 1, i1 := 0, i2 := 1 },
   { normal := (-1, 0), p1 := (1, 1), p2 := (-6, -(1 / 2)), pen := 5 / 8, i1 := 0, i2 := 1 }]
def tieContacts2 : List Contact :=
  [{ normal := (3 / 5, 4 / 5), p1 := (-(33 / 5), -(13 / 10)), p2 := (2 / 5, 1 / 5), pen := 1, i1 := 1, i2 := 0 },
   { normal := (3 / 5, 4 / 5), p1 := (-7, -1), p2 := (0, 1 / 2), pen := 5 / 8, i1 := 1, i2 := 0 }]

/-- C113: in a tie the first body of the pair decides.  Two overlapping squares for which both
separations are -1: presented in one order the contacts have normal (1, 0), in the other (3/5, 4/5). -/
theorem C113_tie (fuel : ℕ) :
    (∃ f', handlePair fuel (1 / 10) tieBodies newFinder 0 1 = .done (f', tieContacts1)) ∧
    ∃ f', handlePair fuel (1 / 10) tieBodies newFinder 1 0 = .done (f', tieContacts2) := by
  have b0 : (bodyAt tieBodies 0).pos = 0 ∧ (bodyAt tieBodies 0).verts = tieSmall ∧ (bodyAt tieBodies 0).isCircle = false :=
    ⟨rfl, rfl, rfl⟩
  have b1 : (bodyAt tieBodies 1).pos = (7, 3 / 2) ∧ (bodyAt tieBodies 1).verts = tieLarge ∧
      (bodyAt tieBodies 1).isCircle = false := ⟨rfl, rfl, rfl⟩
  unfold handlePair
  simp only [b0.1, b0.2.1, b0.2.2, b1.1, b1.2.1, b1.2.2, Bool.false_eq_true, and_self, or_self, if_false]
  have s0 : newFinder.sat 0 = 0 := rfl
  have s1 : newFinder.sat 1 = 0 := rfl
  have s01 : (newFinder.setSat 0 3).sat 1 = 0 := rfl
  have s10 : (newFinder.setSat 1 2).sat 0 = 0 := rfl
  unfold hullHull
  refine ⟨⟨(newFinder.setSat 0 3).setSat 1 2, ?_⟩, ⟨(newFinder.setSat 1 2).setSat 0 3, ?_⟩⟩
  · have e1 : ¬ ((-1 : ℝ) > 1 / 10) := by norm_num
    simp only [s0, tie_first, Sep.edge, Sep.dist, s01, tie_second, if_neg e1, if_neg (lt_irrefl (-1 : ℝ)), tie_manifold1]
    rfl
  · have e1 : ¬ ((-1 : ℝ) > 1 / 10) := by norm_num
    simp only [s1, tie_first, Sep.edge, Sep.dist, s10, tie_second, if_neg e1, if_neg (lt_irrefl (-1 : ℝ)), tie_manifold2]
    rfl

/-- The velocities: the large square approaches at unit speed. -/
def tieVel : Vec := fun k => if k = 4 then -1 else 0

/-- C113: the motion differs as well: any solution of the contact law for the first set of contacts
leaves the large square without vertical velocity, any solution for the second throws it upwards. -/
theorem C113_tie_motion :
    (∀ v' l pn a b g, ContactLaw tieBodies [] tieContacts1 (fun _ => 0) tieVel v' l pn a b g → v' 5 = 0) ∧
    ∀ v' l pn a b g, ContactLaw tieBodies [] tieContacts2 (fun _ => 0) tieVel v' l pn a b g → 0 < v' 5 := by
  have hmu : ∀ c ∈ tieContacts1 ++ tieContacts2, meanFriction tieBodies c = 0 := by
    intro c hc
    simp only [tieContacts1, tieContacts2, List.cons_append, List.nil_append, List.mem_cons, List.not_mem_nil, or_false] at hc
    rcases hc with rfl | rfl | rfl | rfl <;> simp [meanFriction, tieBodies, bodyAt]
  refine ⟨fun v' l pn a b g h => ?_, fun v' l pn a b g h => ?_⟩
  · have hf : ∀ i < 2, a i - b i = 0 := by
      intro i hi
      have hc := (h.cone i hi).1
      rw [hmu (tieContacts1[i]'hi) (List.mem_append_left _ (List.getElem_mem _))] at hc
      have := h.nonneg i hi
      linarith [this.2.1, this.2.2.1]
    have hd := h.dynamics (fun k => if k = 5 then 1 else 0)
    simp [momentumPower, forcePower, jointPower, jointVels, contactPower, tieContacts1, Finset.sum_range_succ, tieBodies, bodyAt,
      twist, normalVel, contactVel, pointVel, Spec.inner, hf 0 (by norm_num), hf 1 (by norm_num), tieVel] at hd
    exact hd
  · have hf : ∀ i < 2, a i - b i = 0 := by
      intro i hi
      have hc := (h.cone i hi).1
      rw [hmu (tieContacts2[i]'hi) (List.mem_append_right _ (List.getElem_mem _))] at hc
      have := h.nonneg i hi
      linarith [this.2.1, this.2.2.1]
    have hd : ∀ k, k < 6 → _ := fun k (_ : k < 6) => h.dynamics (fun m => if m = k then 1 else 0)
    have h0 := (h.nonneg 0 (by norm_num [tieContacts2])).1
    have h1 := (h.nonneg 1 (by norm_num [tieContacts2])).1
    have hr := (h.restitution 0 (by norm_num [tieContacts2])).1
    have d0 := hd 0 (by norm_num)
    have d1 := hd 1 (by norm_num)
    have d2 := hd 2 (by norm_num)
    have d3 := hd 3 (by norm_num)
    have d4 := hd 4 (by norm_num)
    have d5 := hd 5 (by norm_num)
    simp [momentumPower, forcePower, jointPower, jointVels, contactPower, tieContacts2, Finset.sum_range_succ, tieBodies, bodyAt,
      twist, normalVel, contactVel, pointVel, Spec.inner, hf 0 (by norm_num), hf 1 (by norm_num), tieVel,
      meanRestitution] at d0 d1 d2 d3 d4 d5 hr
    nlinarith

/-- The hypotheses of `C113_law` and `C113_tie_motion` can be met: the second set of contacts has a
solution, here with its contacts seen from the other bodies. -/
example : ∃ v' l pn a b g, ContactLaw tieBodies [] (tieContacts2.map flipped) (fun _ => 0) tieVel v' l pn a b g := by
  refine ⟨cat3 [⟨-(12 / 2229), -(36 / 2229), -(48 / 2229)⟩, ⟨-(270 / 2229), -1 + 36 / 2229, 48 / 2229⟩], 0,
    fun i => if i = 0 then 60 / 2229 else 0, 0, 0,
    fun _ => 1046 / 743, ?_⟩
  refine C113_law tieBodies [] tieContacts2 _ (.cons (Or.inr rfl) (.cons (Or.inr rfl) .nil)) _ _ _ _ _ _ _ _ ?_
  refine ⟨?_, by simp [jointVels], ?_, ?_, ?_, ?_⟩
  · intro u
    simp [momentumPower, forcePower, jointPower, jointVels, contactPower, tieContacts2, Finset.sum_range_succ, tieBodies, bodyAt,
      twist, normalVel, contactVel, pointVel, Spec.inner, tieVel, cat3]
    ring
  · intro i _
    refine ⟨?_, le_refl _, le_refl _, ?_⟩ <;> norm_num; split_ifs <;> norm_num
  all_goals
    intro i hi
    have hi' : i = 0 ∨ i = 1 := by simp [tieContacts2] at hi; omega
    rcases hi' with rfl | rfl
  all_goals
    norm_num [tieContacts2, tieBodies, bodyAt, twist, normalVel, slipVel, contactVel, pointVel, Spec.inner, tangent, tieVel, cat3,
      meanRestitution, meanFriction]

/-- Half a unit higher the separations are -1 and -3/5, and the order does not matter. -/
example : (hullHull (1 / 10) (7, 2) 0 tieLarge tieSmall 1 0 newFinder).map Prod.snd =
    (hullHull (1 / 10) 0 (7, 2) tieSmall tieLarge 0 1 newFinder).map fun r => r.2.map Pt.reseen := by
  refine C113_hull_pair _ _ _ _ _ 0 1 (by norm_num) newFinder (.best (-1) (1, 1) (-6, -1) (-1, 0) 2 2 3)
    (.best (-(3 / 5)) (-(159 / 25), -(37 / 25)) (16 / 25, 13 / 25) (3 / 5, 4 / 5) 0 10 2) ?_ ?_ (Or.inl (by norm_num [Sep.dist]))
  · norm_num [test_separations, satOrder, sepStep, tieSmall, tieLarge, nrm, vget, List.range_succ, get_support, supportLoop,
      dot, left_orthogonal, newFinder]
  · norm_num [test_separations, satOrder, sepStep, tieSmall, tieLarge, nrm, vget, List.range_succ, get_support, supportLoop,
      dot, left_orthogonal, newFinder]

/-- A circle on a box, presented in either order. -/
example : handlePair 5 (1 / 10) [unitCircle 0 1 0, (bodyAt tieBodies 0)] newFinder 1 0 =
    (handlePair 5 (1 / 10) [unitCircle 0 1 0, (bodyAt tieBodies 0)] newFinder 0 1).bind
      fun r => .done (r.1, r.2.map flipped) :=
  C113_circle_pair 5 _ _ _ 0 1 (Or.inl rfl)

/-- Three circles in a row; the first pair is presented in either order. -/
example (f : Finder) (f' : Finder) (cs : List Contact)
    (h : handleAll 5 (fun _ => []) (1 / 10) [unitCircle (-2) 1 0, unitCircle 0 1 0, unitCircle 2 1 0] [(0, 1), (1, 2)] f =
      .done (f', cs)) :
    ∃ cs', handleAll 5 (fun _ => []) (1 / 10) [unitCircle (-2) 1 0, unitCircle 0 1 0, unitCircle 2 1 0] [(1, 0), (1, 2)] f =
      .done (f', cs') ∧ List.Forall₂ Reseen cs cs' := by
  refine (C113_scene 5 _ (by simp) _ _ _ _ (.cons (Or.inr rfl) (.cons (Or.inl rfl) .nil)) ?_ f).2 f' cs h
  intro p hp
  simp only [List.mem_cons, List.not_mem_nil, or_false] at hp
  rcases hp with rfl | rfl
  · exact Or.inl rfl
  · exact Or.inl rfl

end LcpPhysics
