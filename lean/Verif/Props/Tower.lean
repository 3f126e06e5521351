import Verif.Props.Statics
import Verif.Props.Rolling
import Verif.Props.NoOverlap
import Verif.Props.SearchTotal
import Verif.Props.CircleWorld
import Mathlib.Analysis.PSeries
import Verif.Lemmas.LevelBox
import Verif.Spec.Tower

/-! # C99: a tower of bricks -/

noncomputable section

namespace LcpPhysics
open Spec
variable {T : Tower}

theorem tower_length (T : Tower) : T.bodies.length = T.n + 1 := by simp [Tower.bodies]

theorem tower_bodyAt {k : ℕ} (hk : k ≤ T.n) : bodyAt T.bodies k = T.body k := by
  have : k < T.n + 1 := by omega
  simp [bodyAt, Tower.bodies, List.getD_eq_getElem?_getD, this]

theorem tower_mkRect (hT : T.Valid) {k : ℕ} (hk : k ≤ T.n) :
    mkRect (.two ((T.blk k).x, T.y k)) ((T.blk k).w, (T.blk k).h)
      { vel := .two (0, 0), mass := (T.blk k).m, restitution := (T.blk k).e, fric_coeff := (T.blk k).μ,
        eps := (T.blk k).eps } = .ok (T.body k) := by
  rw [mkRect_eq _ _ _ (mul_pos (hT.w k hk) (hT.h k hk))]
  rfl

/-- What a block looks like while the tower stands. -/
theorem tower_at (hT : T.Valid) {bs : List Body} (hs : Standing T.bodies bs) {k : ℕ} (hk : k ≤ T.n) :
    (bodyAt bs k).verts = levelBox (T.blk k).w (T.blk k).h ∧ (bodyAt bs k).pos = ((T.blk k).x, T.y k) ∧
      (bodyAt bs k).isCircle = false ∧ Alive (bodyAt bs k) ∧ (bodyAt bs k).eps = (T.blk k).eps := by
  have hl : k < T.bodies.length := by rw [tower_length]; omega
  obtain ⟨ops, ho⟩ := hs.1.2 k hl
  have hp := hs.2 k hl
  rw [tower_bodyAt hk] at ho hp
  have hmk := tower_mkRect hT hk
  have hrot : (bodyAt bs k).rot = 0 := by
    unfold Body.rot; rw [hp]; rfl
  refine ⟨?_, ?_, ?_, ⟨T.body k, ops, ?_, ho⟩, ?_⟩
  · have := C05_rect_rigid _ _ _ _ hmk ops
    rw [ho, this, ← ho, hrot]
    simp [levelBox, rot]
  · unfold Body.pos; rw [hp]; rfl
  · rw [ho]
    rw [run_shape]; rfl
  · exact Constructed.rect _ _ _ _ hmk (hT.w k hk) (hT.h k hk)
  · rw [ho, run_eps]; rfl

theorem pair_hulls {fuel : ℕ} {eps : ℝ} {bs : List Body} {g g' : Finder} {i j : ℕ} {cs : List Contact}
    (hi : (bodyAt bs i).isCircle = false) (hj : (bodyAt bs j).isCircle = false)
    (h : handlePair fuel eps bs g i j = .done (g', cs)) :
    ∃ f' pts, hullHull eps (bodyAt bs i).pos (bodyAt bs j).pos (bodyAt bs i).verts (bodyAt bs j).verts i j g =
      .ok (f', pts) ∧ cs = pts.map fun p : Pt =>
        { normal := p.normal, p1 := p.p1, p2 := p.p2, pen := p.pen, i1 := i, i2 := j, nan := p.nan } := by
  unfold handlePair at h
  simp only [hi, hj, Bool.false_eq_true, and_self, or_self, if_false] at h
  cases hh : hullHull eps (bodyAt bs i).pos (bodyAt bs j).pos (bodyAt bs i).verts (bodyAt bs j).verts i j g with
  | error e => rw [hh] at h; cases h
  | ok r =>
    rw [hh] at h
    simp only [Except.map, Run.ofExcept] at h
    injection h with h
    exact ⟨r.1, r.2, rfl, (Prod.mk.inj h).2.symm⟩

/-- Height of the interface above block `k`. -/
theorem tower_y_succ (T : Tower) (k : ℕ) : T.y (k + 1) = T.y k - ((T.blk k).h + (T.blk (k + 1)).h) / 2 := rfl

/-- The contacts the library reports between neighbouring blocks of a standing tower. -/
theorem tower_pair (hT : T.Valid) {bs : List Body} (hs : Standing T.bodies bs) {k : ℕ} (hk : k < T.n) {fuel : ℕ}
    {eps : ℝ} (heps : 0 ≤ eps) {g g' : Finder} {i j : ℕ} (hij : i = k + 1 ∧ j = k ∨ i = k ∧ j = k + 1)
    {cs : List Contact} (h : handlePair fuel eps bs g i j = .done (g', cs)) :
    (∀ c ∈ cs, c.pen = 0 ∧ ∃ X, T.left k ≤ X ∧ X ≤ T.right k ∧ T.RestsAt k X c) ∧
      (∃ c ∈ cs, T.RestsAt k (T.left k) c) ∧ ∃ c ∈ cs, T.RestsAt k (T.right k) c := by
  obtain ⟨v0, p0, c0, -, -⟩ := tower_at hT hs (le_of_lt hk)
  obtain ⟨v1, p1, c1, -, -⟩ := tower_at hT hs (Nat.succ_le_of_lt hk)
  have w0 := hT.w k hk.le
  have w1 := hT.w (k + 1) hk
  have h0 := hT.h k hk.le
  have h1 := hT.h (k + 1) hk
  have hlr := hT.rests k hk
  unfold Tower.left Tower.right at hlr ⊢
  obtain ⟨la, lb⟩ := max_lt_iff.1 hlr
  obtain ⟨la1, la2⟩ := lt_min_iff.1 la
  obtain ⟨lb1, lb2⟩ := lt_min_iff.1 lb
  have hy := tower_y_succ T k
  rcases hij with ⟨rfl, rfl⟩ | ⟨rfl, rfl⟩
  · obtain ⟨f', pts, hh, rfl⟩ := pair_hulls c1 c0 h
    rw [v0, v1, p0, p1] at hh
    have hD2 : ((((T.blk j).x, T.y j) : V2) - ((T.blk (j + 1)).x, T.y (j + 1))).2 =
        ((T.blk j).h + (T.blk (j + 1)).h) / 2 := by
      simp only [Prod.snd_sub, hy]; ring
    have hD1 : ((((T.blk j).x, T.y j) : V2) - ((T.blk (j + 1)).x, T.y (j + 1))).1 =
        (T.blk j).x - (T.blk (j + 1)).x := rfl
    have habs : |(T.blk j).x - (T.blk (j + 1)).x| < ((T.blk (j + 1)).w + (T.blk j).w) / 2 := by
      rw [abs_lt]; constructor <;> linarith
    have L := level_hullHull (s := 1) w1 h1 w0 h0 (.inl rfl) (by rw [hD2]; linarith)
      (by rw [hD2]; linarith) (by rw [hD1, hD2]; linarith) (by rw [hD1]; linarith) hh
    obtain ⟨La, Ll, Lr⟩ := L
    rw [hD1] at Ll Lr
    have key : ∀ p ∈ pts, T.RestsAt j (p.p1.1 + (T.blk (j + 1)).x)
        { normal := p.normal, p1 := p.p1, p2 := p.p2, pen := p.pen, i1 := j + 1, i2 := j, nan := p.nan } := by
      intro p hp
      obtain ⟨a1, a2, a3, a4, a5, a6⟩ := La p hp
      refine .inl ⟨rfl, rfl, a1, ?_, ?_⟩
      · ext
        · simp
        · simp only [a4, hy]; ring
      · rw [a5]
        ext
        · simp; ring
        · simp only [Prod.snd_sub, a4, hy]; ring
    have el : max (-((T.blk (j + 1)).w / 2)) ((T.blk j).x - (T.blk (j + 1)).x - (T.blk j).w / 2) + (T.blk (j + 1)).x =
        max ((T.blk j).x - (T.blk j).w / 2) ((T.blk (j + 1)).x - (T.blk (j + 1)).w / 2) := by
      rw [← max_add_add_right, max_comm]; congr 1 <;> ring
    have er : min ((T.blk (j + 1)).w / 2) ((T.blk j).x - (T.blk (j + 1)).x + (T.blk j).w / 2) + (T.blk (j + 1)).x =
        min ((T.blk j).x + (T.blk j).w / 2) ((T.blk (j + 1)).x + (T.blk (j + 1)).w / 2) := by
      rw [← min_add_add_right, min_comm]; congr 1 <;> ring
    refine ⟨?_, ?_, ?_⟩
    · intro c hc
      obtain ⟨p, hp, rfl⟩ := List.mem_map.1 hc
      obtain ⟨a1, a2, a3, a4, a5, a6, a7⟩ := La p hp
      rw [hD1] at a6 a7
      refine ⟨?_, _, ?_, ?_, key p hp⟩
      · simp only [a3, hD2]; ring
      · rw [← el]; linarith
      · rw [← er]; linarith
    · obtain ⟨p, hp, e⟩ := Ll
      refine ⟨_, List.mem_map.2 ⟨p, hp, rfl⟩, ?_⟩
      have := key p hp
      rw [e, el] at this
      exact this
    · obtain ⟨p, hp, e⟩ := Lr
      refine ⟨_, List.mem_map.2 ⟨p, hp, rfl⟩, ?_⟩
      have := key p hp
      rw [e, er] at this
      exact this
  · obtain ⟨f', pts, hh, rfl⟩ := pair_hulls c0 c1 h
    rw [v0, v1, p0, p1] at hh
    have hD2 : ((((T.blk (i + 1)).x, T.y (i + 1)) : V2) - ((T.blk i).x, T.y i)).2 =
        -(((T.blk i).h + (T.blk (i + 1)).h) / 2) := by
      simp only [Prod.snd_sub, hy]; ring
    have hD1 : ((((T.blk (i + 1)).x, T.y (i + 1)) : V2) - ((T.blk i).x, T.y i)).1 =
        (T.blk (i + 1)).x - (T.blk i).x := rfl
    have habs : |(T.blk (i + 1)).x - (T.blk i).x| < ((T.blk i).w + (T.blk (i + 1)).w) / 2 := by
      rw [abs_lt]; constructor <;> linarith
    have L := level_hullHull (s := -1) w0 h0 w1 h1 (.inr rfl) (by rw [hD2]; linarith)
      (by rw [hD2]; linarith) (by rw [hD1, hD2]; linarith) (by rw [hD1]; linarith) hh
    obtain ⟨La, Ll, Lr⟩ := L
    rw [hD1] at Ll Lr
    have key : ∀ p ∈ pts, T.RestsAt i (p.p1.1 + (T.blk i).x)
        { normal := p.normal, p1 := p.p1, p2 := p.p2, pen := p.pen, i1 := i, i2 := i + 1, nan := p.nan } := by
      intro p hp
      obtain ⟨a1, a2, a3, a4, a5, a6⟩ := La p hp
      refine .inr ⟨rfl, rfl, by rw [a1]; simp, ?_, ?_⟩
      · ext
        · simp
        · simp only [a4]; ring
      · rw [a5]
        ext
        · simp; ring
        · simp only [Prod.snd_sub, a4, hy]; ring
    have el : max (-((T.blk i).w / 2)) ((T.blk (i + 1)).x - (T.blk i).x - (T.blk (i + 1)).w / 2) + (T.blk i).x =
        max ((T.blk i).x - (T.blk i).w / 2) ((T.blk (i + 1)).x - (T.blk (i + 1)).w / 2) := by
      rw [← max_add_add_right]; congr 1 <;> ring
    have er : min ((T.blk i).w / 2) ((T.blk (i + 1)).x - (T.blk i).x + (T.blk (i + 1)).w / 2) + (T.blk i).x =
        min ((T.blk i).x + (T.blk i).w / 2) ((T.blk (i + 1)).x + (T.blk (i + 1)).w / 2) := by
      rw [← min_add_add_right]; congr 1 <;> ring
    refine ⟨?_, ?_, ?_⟩
    · intro c hc
      obtain ⟨p, hp, rfl⟩ := List.mem_map.1 hc
      obtain ⟨a1, a2, a3, a4, a5, a6, a7⟩ := La p hp
      rw [hD1] at a6 a7
      refine ⟨?_, _, ?_, ?_, key p hp⟩
      · simp only [a3, hD2]; ring
      · rw [← el]; linarith
      · rw [← er]; linarith
    · obtain ⟨p, hp, e⟩ := Ll
      refine ⟨_, List.mem_map.2 ⟨p, hp, rfl⟩, ?_⟩
      have := key p hp
      rw [e, el] at this
      exact this
    · obtain ⟨p, hp, e⟩ := Lr
      refine ⟨_, List.mem_map.2 ⟨p, hp, rfl⟩, ?_⟩
      have := key p hp
      rw [e, er] at this
      exact this

theorem levelBox_mem {w h a b : ℝ} (hw : 0 < w) (hh : 0 < h) (ha : |a| ≤ w / 2) (hb : |b| ≤ h / 2) :
    (a, b) ∈ solid (levelBox w h) := by
  have hQ := levelBox_form hw hh
  obtain ⟨m0, m1, m2, m3⟩ := levelBox_normal hw hh
  obtain ⟨a1, a2⟩ := abs_le.1 ha
  obtain ⟨b1, b2⟩ := abs_le.1 hb
  rw [mem_solid_iff_edgeDist (rect_convex hQ) (rect_noThreeCollinear hQ)]
  intro i hi
  have hi : i < 4 := hi
  unfold edgeDist
  interval_cases i
  · rw [m0]; simp [Spec.inner, levelBox]; linarith
  · rw [m1]; simp [Spec.inner, levelBox]; linarith
  · rw [m2]; simp [Spec.inner, levelBox]; linarith
  · rw [m3]; simp [Spec.inner, levelBox]; linarith

/-- The broad phase presents neighbouring blocks. -/
theorem tower_presented (hT : T.Valid) {pairs : List Body → List (ℕ × ℕ)} (hp : BroadPhase pairs) {bs : List Body}
    (hs : Standing T.bodies bs) {k : ℕ} (hk : k < T.n) : (k, k + 1) ∈ pairs bs ∨ (k + 1, k) ∈ pairs bs := by
  obtain ⟨v0, p0, c0, a0, e0⟩ := tower_at hT hs (le_of_lt hk)
  obtain ⟨v1, p1, c1, a1, e1⟩ := tower_at hT hs (Nat.succ_le_of_lt hk)
  have w0 := hT.w k hk.le
  have w1 := hT.w (k + 1) hk
  have h0 := hT.h k hk.le
  have h1 := hT.h (k + 1) hk
  have hlr := hT.rests k hk
  have hy := tower_y_succ T k
  have hl : bs.length = T.n + 1 := by rw [hs.1.1, tower_length]
  have hX1 : T.left k ≤ T.left k := le_rfl
  set X := T.left k with hX
  have hX2 : X ≤ T.right k := hlr.le
  unfold Tower.left Tower.right at *
  obtain ⟨la, lb⟩ := max_le_iff.1 hX1
  obtain ⟨ra, rb⟩ := le_min_iff.1 hX2
  refine hp.complete bs k (k + 1) (by omega) (by omega) (by omega) ?_
  have hx0 : ((X, T.y k - (T.blk k).h / 2) : V2) ∈ bodyRegion (bodyAt bs k) := by
    rw [(alive_verts a0 c0).2, v0, p0]
    refine levelBox_mem w0 h0 ?_ ?_
    · rw [abs_le]; constructor <;> linarith
    · rw [abs_le]; constructor <;> linarith
  have hx1 : ((X, T.y k - (T.blk k).h / 2) : V2) ∈ bodyRegion (bodyAt bs (k + 1)) := by
    rw [(alive_verts a1 c1).2, v1, p1]
    refine levelBox_mem w1 h1 ?_ ?_
    · rw [abs_le]; constructor <;> linarith
    · simp only [hy]; rw [abs_le]; constructor <;> linarith
  have f0 : 0 ≤ (bodyAt bs k).eps := by rw [e0]; exact hT.eps k hk.le
  have f1 : 0 ≤ (bodyAt bs (k + 1)).eps := by rw [e1]; exact hT.eps (k + 1) hk
  refine (C09_near_bodies_overlap _ _ a0 a1 f0 f1 _ hx0 _ hx1 ?_).2
  unfold Spec.dist
  simp [len]
  linarith

theorem rejectNan_diff {fuel : ℕ} {nc : ℕ → List ℕ} {pairs : List Body → List (ℕ × ℕ)} {eps : ℝ} {f f' : Finder} {bs : List Body}
    {cs : List Contact} (h : rejectNan (diffCollide fuel nc pairs) eps f bs = .ok (f', cs)) :
    handleAll fuel nc eps bs (pairs bs) f = .done (f', cs) := by
  unfold rejectNan at h
  cases hd : diffCollide fuel nc pairs eps f bs with
  | error e => rw [hd] at h; cases h
  | ok r =>
    rw [hd] at h
    simp only at h
    split_ifs at h
    injection h with h
    subst h
    unfold diffCollide at hd
    cases hh : handleAll fuel nc eps bs (pairs bs) f with
    | running => rw [hh] at hd; cases hd
    | raised e => rw [hh] at hd; cases hd
    | done r => rw [hh] at hd; injection hd with hd; rw [hd]

/-- Wherever the tower stands, the search reports contacts at both ends of every interface. -/
theorem tower_search (hT : T.Valid) {pairs : List Body → List (ℕ × ℕ)} (hp : BroadPhase pairs) {bs : List Body}
    (hs : Standing T.bodies bs) {fuel : ℕ} {eps : ℝ} (heps : 0 ≤ eps) {f f' : Finder} {cs : List Contact}
    (h : rejectNan (diffCollide fuel (fun _ => []) pairs) eps f bs = .ok (f', cs)) {k : ℕ} (hk : k < T.n) :
    (∃ c ∈ cs, T.RestsAt k (T.left k) c) ∧ ∃ c ∈ cs, T.RestsAt k (T.right k) c := by
  have hall := rejectNan_diff h
  rcases tower_presented hT hp hs hk with hm | hm
  · obtain ⟨g, g', cs', hh, hsub⟩ := handleAll_handled hall _ hm (by simp)
    obtain ⟨-, ⟨c, hc, h1⟩, c', hc', h2⟩ := tower_pair hT hs hk heps (.inr ⟨rfl, rfl⟩) hh
    exact ⟨⟨c, hsub c hc, h1⟩, c', hsub c' hc', h2⟩
  · obtain ⟨g, g', cs', hh, hsub⟩ := handleAll_handled hall _ hm (by simp)
    obtain ⟨-, ⟨c, hc, h1⟩, c', hc', h2⟩ := tower_pair hT hs hk heps (.inl ⟨rfl, rfl⟩) hh
    exact ⟨⟨c, hsub c hc, h1⟩, c', hsub c' hc', h2⟩

/-- Velocity at which block `k + 1` lifts off block `k` at abscissa `X`. -/
theorem restsAt_normal {k : ℕ} {X : ℝ} {c : Contact} (h : T.RestsAt k X c) (u : Vec) :
    normalVel c u = ((twist u k).y + (twist u k).r * (X - (T.blk k).x)) -
      ((twist u (k + 1)).y + (twist u (k + 1)).r * (X - (T.blk (k + 1)).x)) := by
  rcases h with ⟨e1, e2, e3, e4, e5⟩ | ⟨e1, e2, e3, e4, e5⟩ <;>
    simp only [normalVel, contactVel, e1, e2, e3, e4, e5, pointVel, Spec.inner, Prod.fst_sub, Prod.snd_sub] <;> ring

theorem restsAt_slip {k : ℕ} {X : ℝ} {c : Contact} (h : T.RestsAt k X c) (u : Vec)
    (h0 : (twist u k).x - (twist u k).r * (T.y k - (T.blk k).h / 2 - T.y k) =
      (twist u (k + 1)).x - (twist u (k + 1)).r * (T.y k - (T.blk k).h / 2 - T.y (k + 1))) : slipVel c u = 0 := by
  rcases h with ⟨e1, e2, e3, e4, e5⟩ | ⟨e1, e2, e3, e4, e5⟩ <;>
    simp only [slipVel, contactVel, e1, e2, e3, e4, e5, pointVel, Spec.inner, tangent, Prod.fst_sub, Prod.snd_sub, h0] <;> ring

theorem massFrom_succ (T : Tower) {k : ℕ} (hk : k ≤ T.n) : T.massFrom k = (T.blk k).m + T.massFrom (k + 1) := by
  unfold Tower.massFrom
  exact Finset.sum_eq_sum_Ico_succ_bot (by omega) _

theorem momentFrom_succ (T : Tower) {k : ℕ} (hk : k ≤ T.n) :
    T.momentFrom k = (T.blk k).m * (T.blk k).x + T.momentFrom (k + 1) := by
  unfold Tower.momentFrom
  exact Finset.sum_eq_sum_Ico_succ_bot (by omega) _

theorem massFrom_top (T : Tower) : T.massFrom (T.n + 1) = 0 ∧ T.momentFrom (T.n + 1) = 0 := by
  simp [Tower.massFrom, Tower.momentFrom]

/-- The joints of a tower: its floor is fixed. -/
def FloorFixed (js : List Joint) : Prop := ∃ j, js = [j] ∧ j.kind = .total ∧ j.i1 = 0 ∧ j.i2 = none

theorem floorFixed_vels {js : List Joint} (h : FloorFixed js) (u : Vec) :
    (∀ x ∈ jointVels js u, x = 0) ↔ twist u 0 = 0 := by
  obtain ⟨j, rfl, h1, h2, h3⟩ := h
  simp only [jointVels, List.flatMap_cons, List.flatMap_nil, List.append_nil, jointVel, h1, h2, List.mem_cons,
    List.not_mem_nil, or_false, forall_eq_or_imp, forall_eq]
  constructor
  · rintro ⟨a, b, c⟩; exact V3.ext a b c
  · intro h; rw [h]; exact ⟨rfl, rfl, rfl⟩

/-- The weights of a stable tower do no positive work in any motion its contacts allow. -/
theorem stable_work (hT : T.Valid) (hst : T.Stable) {g : ℝ} (hg : 0 ≤ g) {fl : List V3}
    (hfl : ∀ k, 1 ≤ k → k ≤ T.n → fl.getD k 0 = ⟨0, 0, (T.blk k).m * g⟩) {u : Vec} (h0 : twist u 0 = 0)
    (hl : ∀ k < T.n, 0 ≤ ((twist u k).y + (twist u k).r * (T.left k - (T.blk k).x)) -
      ((twist u (k + 1)).y + (twist u (k + 1)).r * (T.left k - (T.blk (k + 1)).x)))
    (hr : ∀ k < T.n, 0 ≤ ((twist u k).y + (twist u k).r * (T.right k - (T.blk k).x)) -
      ((twist u (k + 1)).y + (twist u (k + 1)).r * (T.right k - (T.blk (k + 1)).x))) :
    forcePower (T.n + 1) (fun i => fl.getD i 0) u ≤ 0 := by
  set E : ℕ → ℕ → ℝ := fun k j => T.massFrom k * ((twist u j).y - (twist u j).r * (T.blk j).x) +
    T.momentFrom k * (twist u j).r with hE
  have hB : ∀ k < T.n, 0 ≤ E (k + 1) k - E (k + 1) (k + 1) := by
    intro k hk
    obtain ⟨s1, s2⟩ := hst k hk
    have hlr := hT.rests k hk
    have a := hl k hk
    have b := hr k hk
    have key : (T.right k - T.left k) * (E (k + 1) k - E (k + 1) (k + 1)) =
        (T.right k * T.massFrom (k + 1) - T.momentFrom (k + 1)) *
          (((twist u k).y + (twist u k).r * (T.left k - (T.blk k).x)) -
            ((twist u (k + 1)).y + (twist u (k + 1)).r * (T.left k - (T.blk (k + 1)).x))) +
        (T.momentFrom (k + 1) - T.left k * T.massFrom (k + 1)) *
          (((twist u k).y + (twist u k).r * (T.right k - (T.blk k).x)) -
            ((twist u (k + 1)).y + (twist u (k + 1)).r * (T.right k - (T.blk (k + 1)).x))) := by
      simp only [hE]; ring
    have : 0 ≤ (T.right k - T.left k) * (E (k + 1) k - E (k + 1) (k + 1)) := by
      rw [key]
      exact add_nonneg (mul_nonneg (by linarith) a) (mul_nonneg (by linarith) b)
    exact nonneg_of_mul_nonneg_right this (by linarith)
  have hstep : ∀ k < T.n, E (k + 1) k - E (k + 1) (k + 1) =
      (E (k + 1) k - E (k + 1 + 1) (k + 1)) - (T.blk (k + 1)).m * (twist u (k + 1)).y := by
    intro k hk
    simp only [hE]
    rw [massFrom_succ T (k := k + 1) hk, momentFrom_succ T (k := k + 1) hk]
    ring
  have hsum : 0 ≤ ∑ k ∈ Finset.range T.n, (E (k + 1) k - E (k + 1) (k + 1)) :=
    Finset.sum_nonneg fun k hk => hB k (Finset.mem_range.1 hk)
  rw [Finset.sum_congr rfl fun k hk => hstep k (Finset.mem_range.1 hk), Finset.sum_sub_distrib,
    Finset.sum_range_sub' (fun k => E (k + 1) k)] at hsum
  have e0 : E (0 + 1) 0 = 0 := by simp [hE, h0]
  have en : E (T.n + 1) T.n = 0 := by simp [hE, massFrom_top]
  rw [e0, en] at hsum
  unfold forcePower
  rw [Finset.sum_range_succ']
  simp only [h0]
  rw [Finset.sum_congr rfl fun k hk => show _ = g * ((T.blk (k + 1)).m * (twist u (k + 1)).y) by
    have := Finset.mem_range.1 hk
    rw [hfl (k + 1) (by omega) (by omega)]; simp; ring, ← Finset.mul_sum]
  simp
  have := mul_nonneg hg hsum
  linarith

/-! ## Worlds that hold a tower at rest -/

/-- A world whose bodies are those of the tower, in place and at rest, with the floor fixed. -/
structure TowerWorld (T : Tower) (collide : ℝ → Finder → List Body → Except Err (Finder × List Contact))
    (w : World (Option Mat) Finder) : Prop where
  inv : EngineInv w
  standing : Standing T.bodies w.bodies
  floor : FloorFixed w.joints
  rest : AtRest (T.n + 1) w.v
  eps : 0 ≤ w.eps
  search : ∃ f f', collide w.eps f w.bodies = .ok (f', w.contacts)

theorem mkWorld_done {collide : ℝ → Finder → List Body → Except Err (Finder × List Contact)} (hfind : FinderOk collide)
    {H : ForceHeap} {lcp : LcpSolver} {mi : ℕ} {fnd : Finder} {bodies : List Body} {joints : List Joint}
    {dt eps tol : ℝ} {ps strict : Bool} {w : World (Option Mat) Finder}
    (hb : ∀ b ∈ bodies, b.RectForm) (hj : ∀ j ∈ joints, j.update_pos bodies = j) (hne : ∀ j ∈ joints, ∀ k ∈ j.i2, j.i1 ≠ k)
    (h : mkWorld (pdipmEnv 2 H lcp mi collide) none fnd bodies joints dt eps tol ps strict = .done w) :
    EngineInv w ∧ w.bodies = bodies ∧ w.joints = joints ∧ w.v = cat3 (bodies.map Body.v) ∧ w.eps = eps ∧ w.tol = tol ∧
      w.post_stab = ps ∧ ∃ f', collide eps fnd bodies = .ok (f', w.contacts) := by
  have hgood := C30_mkWorld_good _ _ _ _ _ _ _ _ _ _ _ hb hj h
  have hbod : (initWorld (none : Option Mat) fnd bodies joints dt eps tol ps strict).bodies = bodies := by
    apply List.ext_getElem
    · simp [initWorld, World.set_v]
    · intro i h1 h2
      simp only [initWorld, World.set_v, List.getElem_map, List.getElem_zipIdx]
      rw [Nat.zero_add, cat3_slice _ i (by simpa using h2), List.getElem_map]
  have hw : ∃ f' cs, w = { initWorld (none : Option Mat) fnd bodies joints dt eps tol ps strict with contacts := cs, fnd := f' } ∧
      collide eps fnd bodies = .ok (f', cs) := by
    unfold mkWorld at h
    by_cases h0 : bodies.length = 0
    · rw [if_pos h0] at h; cases h
    rw [if_neg h0] at h
    by_cases h1 : ∀ j ∈ joints, j.i1 < bodies.length ∧ ∀ k ∈ j.i2, k < bodies.length
    swap
    · rw [if_neg h1] at h; cases h
    rw [if_pos h1] at h
    rw [Run.bind_eq_done] at h
    obtain ⟨w1, h3, h4⟩ := h
    have hw1 : w1 = w := by
      split_ifs at h4 with h5 h6
      · injection h4
      · injection h4
    subst hw1
    unfold World.find_contacts at h3
    have hcol : (pdipmEnv 2 H lcp mi collide).collide
        (initWorld (none : Option Mat) fnd bodies joints dt eps tol ps strict).eps
        (initWorld (none : Option Mat) fnd bodies joints dt eps tol ps strict).fnd
        (initWorld (none : Option Mat) fnd bodies joints dt eps tol ps strict).bodies = collide eps fnd bodies := by
      rw [hbod]; rfl
    rw [hcol] at h3
    cases hc : collide eps fnd bodies with
    | error e => rw [hc] at h3; cases h3
    | ok r =>
      rw [hc] at h3
      simp only at h3
      injection h3 with h3
      exact ⟨r.1, r.2, h3.symm, rfl⟩
  obtain ⟨f', cs, rfl, hcol⟩ := hw
  refine ⟨⟨hgood, ?_, ?_, ?_⟩, hbod, rfl, rfl, rfl, rfl, rfl, f', hcol⟩
  · intro j hj'
    obtain ⟨v1, v2⟩ := hgood.valid j hj'
    exact ⟨v1, fun k hk => ⟨v2 k hk, hne j hj' k hk⟩⟩
  · intro c' hc'
    show _ < (initWorld (none : Option Mat) fnd bodies joints dt eps tol ps strict).bodies.length ∧
      _ < (initWorld (none : Option Mat) fnd bodies joints dt eps tol ps strict).bodies.length ∧ _
    rw [hbod]
    exact hfind _ _ _ _ _ hcol c' hc'
  · intro inv hi; cases hi

theorem body_rectForm (hT : T.Valid) {k : ℕ} (hk : k ≤ T.n) : (T.body k).RectForm :=
  mkRect_rectForm (tower_mkRect hT hk)

/-- The world built from the bodies of a tower, with a `TotalConstraint` on the floor. -/
theorem tower_initial (hT : T.Valid) {pairs : List Body → List (ℕ × ℕ)} (hp : BroadPhase pairs) {cfuel : ℕ}
    {H : ForceHeap} {lcp : LcpSolver} {mi : ℕ} {fnd : Finder} {dt eps tol : ℝ} (heps : 0 ≤ eps) {ps strict : Bool}
    {w : World (Option Mat) Finder}
    (h : mkWorld (pdipmEnv 2 H lcp mi (rejectNan (diffCollide cfuel (fun _ => []) pairs))) none fnd T.bodies
      [mkTotal T.bodies 0] dt eps tol ps strict = .done w) :
    TowerWorld T (rejectNan (diffCollide cfuel (fun _ => []) pairs)) w := by
  obtain ⟨hi, hb, hj, hv, he, -, -, f', hc⟩ := mkWorld_done (C12_finder_ok cfuel _ pairs hp.valid) (by
      intro b hb
      simp only [Tower.bodies, List.mem_map, List.mem_range] at hb
      obtain ⟨k, hk, rfl⟩ := hb
      exact body_rectForm hT (by omega)) (by
      intro j hj
      rw [List.mem_singleton] at hj
      subst hj
      exact mkTotal_fix _ _ _ rfl) (by
      intro j hj
      rw [List.mem_singleton] at hj
      subst hj
      simp [mkTotal]) h
  refine ⟨hi, by rw [hb]; exact standing_rfl _, ⟨_, hj, rfl, rfl, rfl⟩, ?_, by rw [he]; exact heps, fnd, f', by rw [he, hb]; exact hc⟩
  rw [hv]
  have : ∀ k < T.n + 1, slice3 (cat3 (T.bodies.map Body.v)) k = 0 := by
    intro k hk
    rw [cat3_slice _ k (by simpa [tower_length] using hk)]
    simp only [List.getElem_map, Tower.bodies, List.getElem_range]
    rfl
  intro i hi
  have h3 := this (i / 3) (by omega)
  have e0 := congrArg V3.r h3
  have e1 := congrArg V3.x h3
  have e2 := congrArg V3.y h3
  simp only [slice3] at e0 e1 e2
  have hm := Nat.div_add_mod i 3
  rw [mul_comm] at hm
  have : i % 3 < 3 := Nat.mod_lt _ (by norm_num)
  rw [← hm]
  interval_cases i % 3
  · exact e0
  · exact e1
  · exact e2

theorem standing_consts {bs bs' : List Body} (h : Standing bs bs') {k : ℕ} (hk : k < bs.length) :
    (bodyAt bs' k).consts = (bodyAt bs k).consts := by
  obtain ⟨ops, ho⟩ := h.1.2 k hk
  rw [ho, run_consts]

theorem tower_pos (hT : T.Valid) {bs : List Body} (hs : Standing T.bodies bs) :
    ∀ b ∈ bs, 0 < b.mass ∧ 0 < b.ang_inertia := by
  intro b hb
  obtain ⟨i, hi, rfl⟩ := List.getElem_of_mem hb
  have hb' : bs[i] = bodyAt bs i := by simp [bodyAt, List.getD_eq_getElem?_getD, hi]
  rw [hs.1.1] at hi
  have hc := standing_consts hs hi
  rw [tower_length] at hi
  rw [tower_bodyAt (by omega)] at hc
  simp only [Body.consts, Prod.mk.injEq] at hc
  rw [hb', hc.1, hc.2.1]
  have hm := hT.m i (by omega)
  have hw := hT.w i (by omega)
  refine ⟨hm, ?_⟩
  show 0 < (T.blk i).m * ((T.blk i).w ^ 2 + (T.blk i).h ^ 2) / 12
  positivity

/-- The contacts of a stable tower prop its weights. -/
theorem tower_propped (hT : T.Valid) (hst : T.Stable) {g : ℝ} (hg : 0 ≤ g) {pairs : List Body → List (ℕ × ℕ)}
    (hp : BroadPhase pairs) {bs : List Body} (hs : Standing T.bodies bs) {cfuel : ℕ} {eps : ℝ} (heps : 0 ≤ eps) {f f' : Finder}
    {cs : List Contact} (hcol : rejectNan (diffCollide cfuel (fun _ => []) pairs) eps f bs = .ok (f', cs)) {js : List Joint}
    (hj : FloorFixed js) {fl : List V3} (hfl : ∀ k, 1 ≤ k → k ≤ T.n → fl.getD k 0 = ⟨0, 0, (T.blk k).m * g⟩) :
    Propped (T.n + 1) js cs fun i => fl.getD i 0 := by
  rw [C99_virtual_work]
  rintro u ⟨hu1, hu2⟩
  refine stable_work hT hst hg hfl ((floorFixed_vels hj u).1 hu1) ?_ ?_
  · intro k hk
    obtain ⟨⟨c, hc, hr⟩, -⟩ := tower_search hT hp hs heps hcol hk
    rw [← restsAt_normal hr]
    exact hu2 c hc
  · intro k hk
    obtain ⟨-, c, hc, hr⟩ := tower_search hT hp hs heps hcol hk
    rw [← restsAt_normal hr]
    exact hu2 c hc

/-- C99: a tower of level bricks, each resting on the one below, in which at every interface the common centre
of mass of everything above lies over the area of contact, stands still for ever: every body keeps
its exact pose and zero velocity, at any step sizes, whatever the coefficients of friction and restitution, the solver,
the order in which pairs of bodies are presented and the cached edges, with post-stabilization on or off. -/
theorem C99_tower (T : Tower) (hT : T.Valid) (hst : T.Stable) (H : ForceHeap) (g : ℝ) (hg : 0 ≤ g) (hH : T.Weigh H g)
    (lcp : LcpSolver) (hx : Exact lcp) (mi cfuel : ℕ) (pairs : List Body → List (ℕ × ℕ)) (hp : BroadPhase pairs)
    (w0 w : World (Option Mat) Finder) (h0 : TowerWorld T (rejectNan (diffCollide cfuel (fun _ => []) pairs)) w0)
    (h : ReachesFwd (pdipmEnv 2 H lcp mi (rejectNan (diffCollide cfuel (fun _ => []) pairs))) w0 w) :
    ∀ k ≤ T.n, twist w.v k = 0 ∧ (bodyAt w.bodies k).p = ⟨0, (T.blk k).x, T.y k⟩ ∧
      (bodyAt w.bodies k).verts = (T.body k).verts := by
  have hl : w0.bodies.length = T.n + 1 := by rw [h0.standing.1.1, tower_length]
  have hpr : ∀ cs f bs f', Standing w0.bodies bs →
      rejectNan (diffCollide cfuel (fun _ => []) pairs) w0.eps f bs = .ok (f', cs) → ∀ fl t,
      forceCat H t w0.bodies.length = .ok fl → Propped w0.bodies.length w0.joints cs fun i => fl.getD i 0 := by
    intro cs f bs f' hs hcol fl t hfl
    rw [hl] at hfl ⊢
    exact tower_propped hT hst hg hp (standing_trans h0.standing hs) h0.eps hcol h0.floor (hH t fl hfl)
  obtain ⟨r1, r2, -⟩ := C99_stays H lcp mi _ (C12_finder_ok cfuel _ pairs hp.valid) hx w0 w h0.inv (tower_pos hT h0.standing)
    (by rw [hl]; exact h0.rest) (by
      rintro t fl hfl cs (rfl | ⟨f, bs, f', hs, hcol⟩)
      · obtain ⟨f, f', hcol⟩ := h0.search
        exact hpr _ f _ f' (standing_rfl _) hcol fl t hfl
      · exact hpr cs f bs f' hs hcol fl t hfl) h
  intro k hk
  rw [hl] at r1
  have hs := standing_trans h0.standing r2
  refine ⟨?_, ?_, ?_⟩
  · exact atRest_twist r1 (by omega)
  · rw [hs.2 k (by rw [tower_length]; omega), tower_bodyAt hk]; rfl
  · rw [(tower_at hT hs hk).1, ← tower_bodyAt hk, (tower_at hT (standing_rfl _) hk).1]

/-! ## Towers that fall -/

theorem tower_gap (hT : T.Valid) (i d : ℕ) (h : i + 2 + d ≤ T.n) :
    (T.blk (i + 1)).h ≤ T.y i - T.y (i + 2 + d) - ((T.blk i).h + (T.blk (i + 2 + d)).h) / 2 := by
  induction d with
  | zero =>
    have h1 := tower_y_succ T i
    have h2 := tower_y_succ T (i + 1)
    have e : i + 2 + 0 = i + 1 + 1 := rfl
    rw [e, h2, h1]
    linarith
  | succ d ih =>
    have h0 := ih (by omega)
    have h1 := tower_y_succ T (i + 2 + d)
    have h2 := hT.h (i + 2 + d) (by omega)
    have e : i + 2 + (d + 1) = i + 2 + d + 1 := rfl
    rw [e, h1]
    linarith

/-- Two level boxes far apart in height get no contact. -/
theorem level_far {w h W H : ℝ} (hw : 0 < w) (hh : 0 < h) (hW : 0 < W) (hH : 0 < H) {eps : ℝ} {pos1 pos2 : V2}
    (hg : eps < |(pos2 - pos1).2| - (h + H) / 2) {i1 i2 : ℕ} {f f' : Finder} {pts : List Pt}
    (hc : hullHull eps pos1 pos2 (levelBox w h) (levelBox W H) i1 i2 f = .ok (f', pts)) : pts = [] := by
  by_contra hne
  obtain ⟨s1, s2, r1, r2, t1, l1, -, -⟩ := hullHull_reported hc hne
  have key : |(pos2 - pos1).2| - (h + H) / 2 ≤ r1.dist := by
    rcases test_sep_spec t1 with ⟨d, i, rfl, hi, hgap, hgt, -⟩ | ⟨d, pt1, pt2, nn, vx, en, e, rfl, he, hgb, -, hall⟩
    · exact absurd l1 (not_le.2 hgt)
    · obtain ⟨d0, hd0, hle0⟩ := hall 0 (by simp [levelBox])
      obtain ⟨d2, hd2, hle2⟩ := hall 2 (by simp [levelBox])
      rw [(levelGap hw hh hW hH hd0).1 rfl] at hle0
      rw [(levelGap hw hh hW hH hd2).2.2.1 rfl] at hle2
      show _ ≤ d
      rcases abs_cases (pos2 - pos1).2 with ⟨e, -⟩ | ⟨e, -⟩ <;> rw [e] <;> linarith
  linarith

/-- Bricks that others rest on are thicker than the contact distance. -/
def Thick (T : Tower) (eps : ℝ) : Prop := ∀ k, 1 ≤ k → k < T.n → eps < (T.blk k).h

/-- Then all contacts are between neighbours, in the area where they touch. -/
theorem tower_contacts (hT : T.Valid) {pairs : List Body → List (ℕ × ℕ)} (hp : BroadPhase pairs) {bs : List Body}
    (hs : Standing T.bodies bs) {fuel : ℕ} {eps : ℝ} (heps : 0 ≤ eps) (hth : Thick T eps) {f f' : Finder} {cs : List Contact}
    (h : rejectNan (diffCollide fuel (fun _ => []) pairs) eps f bs = .ok (f', cs)) :
    ∀ c ∈ cs, c.pen = 0 ∧ ∃ k < T.n, ∃ X, T.left k ≤ X ∧ X ≤ T.right k ∧ T.RestsAt k X c := by
  intro c hc
  obtain ⟨p, hpm, g, g', cs', -, hpair, hc'⟩ := handleAll_mem (rejectNan_diff h) c hc
  obtain ⟨v1, v2, v3⟩ := hp.valid bs p hpm
  rw [hs.1.1, tower_length] at v1 v2
  have far : ∀ i j, i ≤ T.n → j ≤ T.n → i + 2 ≤ j ∨ j + 2 ≤ i → ∀ {g g' : Finder} {cs' : List Contact},
      handlePair fuel eps bs g i j = .done (g', cs') → cs' = [] := by
    intro i j hi hj hij g g' cs' hpair
    obtain ⟨vi, pi, ci, -, -⟩ := tower_at hT hs hi
    obtain ⟨vj, pj, cj, -, -⟩ := tower_at hT hs hj
    obtain ⟨f', pts, hh, rfl⟩ := pair_hulls ci cj hpair
    rw [vi, vj, pi, pj] at hh
    rw [level_far (hT.w i hi) (hT.h i hi) (hT.w j hj) (hT.h j hj) ?_ hh, List.map_nil]
    simp only [Prod.mk_sub_mk]
    rcases hij with hij | hij
    · obtain ⟨d, rfl⟩ := Nat.exists_eq_add_of_le hij
      have h1 := tower_gap hT i d hj
      have h2 := hth (i + 1) (by omega) (by omega)
      have h3 := neg_abs_le (T.y (i + 2 + d) - T.y i)
      linarith
    · obtain ⟨d, rfl⟩ := Nat.exists_eq_add_of_le hij
      have h1 := tower_gap hT j d hi
      have h2 := hth (j + 1) (by omega) (by omega)
      have h3 := le_abs_self (T.y j - T.y (j + 2 + d))
      linarith
  by_cases h1 : p.1 = p.2 + 1
  · rw [h1] at hpair
    obtain ⟨ha, -, -⟩ := tower_pair hT hs (k := p.2) (by omega) heps (.inl ⟨rfl, rfl⟩) hpair
    obtain ⟨a1, X, a2⟩ := ha c hc'
    exact ⟨a1, p.2, by omega, X, a2⟩
  by_cases h2 : p.2 = p.1 + 1
  · rw [h2] at hpair
    obtain ⟨ha, -, -⟩ := tower_pair hT hs (k := p.1) (by omega) heps (.inr ⟨rfl, rfl⟩) hpair
    obtain ⟨a1, X, a2⟩ := ha c hc'
    exact ⟨a1, p.1, by omega, X, a2⟩
  · rw [far p.1 p.2 (by omega) (by omega) (by omega) hpair] at hc'
    simp at hc'

/-- The blocks above interface `k` turn about the point `(X, Y)`. -/
def tipping (T : Tower) (k : ℕ) (X Y ω : ℝ) : Vec := fun i =>
  if k < i / 3 then
    if i % 3 = 0 then ω else if i % 3 = 1 then -(ω * (T.y (i / 3) - Y)) else ω * ((T.blk (i / 3)).x - X)
  else 0

theorem tipping_twist (T : Tower) (k : ℕ) (X Y ω : ℝ) (j : ℕ) : twist (tipping T k X Y ω) j =
    if k < j then ⟨ω, -(ω * (T.y j - Y)), ω * ((T.blk j).x - X)⟩ else 0 := by
  have a1 : 3 * j / 3 = j := by omega
  have a2 : (3 * j + 1) / 3 = j := by omega
  have a3 : (3 * j + 2) / 3 = j := by omega
  have b1 : 3 * j % 3 = 0 := by omega
  have b2 : (3 * j + 1) % 3 = 1 := by omega
  have b3 : (3 * j + 2) % 3 = 2 := by omega
  unfold twist tipping
  simp only [a1, a2, a3, b1, b2, b3]
  by_cases h : k < j
  · simp [h]
  · simp only [h, if_false]; rfl

theorem tipping_work {g : ℝ} {fl : List V3} (hfl : ∀ k, 1 ≤ k → k ≤ T.n → fl.getD k 0 = ⟨0, 0, (T.blk k).m * g⟩)
    {k : ℕ} (hk : k < T.n) (X Y ω : ℝ) : forcePower (T.n + 1) (fun i => fl.getD i 0) (tipping T k X Y ω) =
      g * ω * (T.momentFrom (k + 1) - X * T.massFrom (k + 1)) := by
  unfold forcePower
  rw [← Finset.sum_range_add_sum_Ico _ (show k + 1 ≤ T.n + 1 by omega)]
  rw [Finset.sum_eq_zero, zero_add]
  · unfold Tower.massFrom Tower.momentFrom
    rw [Finset.mul_sum, ← Finset.sum_sub_distrib, Finset.mul_sum]
    refine Finset.sum_congr rfl fun j hj => ?_
    obtain ⟨j1, j2⟩ := Finset.mem_Ico.1 hj
    beta_reduce
    rw [tipping_twist, if_pos (by omega), hfl j (by omega) (by omega)]
    simp
    ring
  · intro j hj
    rw [tipping_twist, if_neg (by have := Finset.mem_range.1 hj; omega)]
    simp

/-- Contacts neither resist nor slide when the blocks above an interface tip about its end. -/
theorem tipping_contact {k l : ℕ} {X Xe ω : ℝ} {c : Contact} (h : T.RestsAt l X c) (hX : l = k → 0 ≤ ω * (Xe - X)) :
    0 ≤ normalVel c (tipping T k Xe (T.y k - (T.blk k).h / 2) ω) ∧
      slipVel c (tipping T k Xe (T.y k - (T.blk k).h / 2) ω) = 0 := by
  rcases lt_trichotomy l k with hl | rfl | hl
  · constructor
    · rw [restsAt_normal h, tipping_twist, tipping_twist, if_neg (by omega), if_neg (by omega)]
      simp
    · refine restsAt_slip h _ ?_
      rw [tipping_twist, tipping_twist, if_neg (by omega), if_neg (by omega)]
      simp
  · constructor
    · rw [restsAt_normal h, tipping_twist, tipping_twist, if_neg (by omega), if_pos (by omega)]
      have := hX rfl
      simp
      linarith
    · refine restsAt_slip h _ ?_
      rw [tipping_twist, tipping_twist, if_neg (by omega), if_pos (by omega)]
      simp
      ring
  · constructor
    · rw [restsAt_normal h, tipping_twist, tipping_twist, if_pos (by omega), if_pos (by omega)]
      simp only
      apply le_of_eq
      ring
    · refine restsAt_slip h _ ?_
      rw [tipping_twist, tipping_twist, if_pos (by omega), if_pos (by omega)]
      simp only
      ring

/-- No forces within the friction cones hold an overhanging tower. -/
theorem unstable_unbalanced {bs : List Body} (hl : bs.length = T.n + 1) {js : List Joint} (hj : FloorFixed js)
    {cs : List Contact} (hcs : ∀ c ∈ cs, c.pen = 0 ∧ ∃ k < T.n, ∃ X, T.left k ≤ X ∧ X ≤ T.right k ∧ T.RestsAt k X c)
    {g : ℝ} (hg : 0 < g) {fl : List V3} (hfl : ∀ k, 1 ≤ k → k ≤ T.n → fl.getD k 0 = ⟨0, 0, (T.blk k).m * g⟩)
    {dt : ℝ} (hdt : 0 < dt) (hb : Balanced bs js cs (impulse fl dt)) : T.Stable := by
  obtain ⟨l, pn, pt, hcone, hbal⟩ := hb
  have key : ∀ k < T.n, ∀ Xe ω, (∀ X, T.left k ≤ X → X ≤ T.right k → 0 ≤ ω * (Xe - X)) →
      ω * (T.momentFrom (k + 1) - Xe * T.massFrom (k + 1)) ≤ 0 := by
    intro k hk Xe ω hX
    have hb := hbal (tipping T k Xe (T.y k - (T.blk k).h / 2) ω)
    rw [hl, forcePower_impulse, tipping_work hfl hk, jointPower_zero js l _ ((floorFixed_vels hj _).2 (by
      rw [tipping_twist, if_neg (by omega)]))] at hb
    have hcp : 0 ≤ contactPower cs pn pt (tipping T k Xe (T.y k - (T.blk k).h / 2) ω) := by
      unfold contactPower
      refine Finset.sum_nonneg fun i hi => ?_
      have hi := Finset.mem_range.1 hi
      rw [List.getElem?_eq_getElem hi]
      simp only
      obtain ⟨-, m, hm, X, x1, x2, hr⟩ := hcs cs[i] (List.getElem_mem hi)
      obtain ⟨n1, n2⟩ := tipping_contact (k := k) (Xe := Xe) (ω := ω) hr (by rintro rfl; exact hX X x1 x2)
      rw [n2, mul_zero, add_zero]
      exact mul_nonneg (hcone i hi).1 n1
    have hd : dt * g * (ω * (T.momentFrom (k + 1) - Xe * T.massFrom (k + 1))) ≤ 0 := by
      rw [show dt * g * (ω * (T.momentFrom (k + 1) - Xe * T.massFrom (k + 1))) =
        dt * (g * ω * (T.momentFrom (k + 1) - Xe * T.massFrom (k + 1))) by ring]
      linarith
    exact nonpos_of_mul_nonpos_right hd (mul_pos hdt hg)
  intro k hk
  have h1 := key k hk (T.left k) (-1) (fun X x1 x2 => by linarith)
  have h2 := key k hk (T.right k) 1 (fun X x1 x2 => by linarith)
  constructor <;> linarith

/-- C99: the classical criterion is exact.  A tower at rest under gravity is still at rest after a step if and only if
at every interface the common centre of mass of the bricks above lies over the area of contact - otherwise it starts to
fall, whatever the friction. -/
theorem C99_tower_criterion (T : Tower) (hT : T.Valid) (H : ForceHeap) (g : ℝ) (hg : 0 < g) (hH : T.Weigh H g)
    (lcp : LcpSolver) (hx : Exact lcp) (mi cfuel : ℕ) (pairs : List Body → List (ℕ × ℕ)) (hp : BroadPhase pairs)
    (w w' : World (Option Mat) Finder) (h0 : TowerWorld T (rejectNan (diffCollide cfuel (fun _ => []) pairs)) w)
    (hth : Thick T w.eps) (fuel : ℕ) (dt : ℝ) (hdt : 0 < dt)
    (h : w.step_dt (pdipmEnv 2 H lcp mi (rejectNan (diffCollide cfuel (fun _ => []) pairs))) fuel dt = .done w') :
    (∀ k ≤ T.n, twist w'.v k = 0) ↔ T.Stable := by
  have hl : w.bodies.length = T.n + 1 := by rw [h0.standing.1.1, tower_length]
  constructor
  · intro hr
    obtain ⟨fl, l, pn, a, b, gs, hfl, law⟩ := step_law hx h0.inv h
    obtain ⟨f, f', hcol⟩ := h0.search
    have hrest : AtRest w.bodies.length w'.v := by
      intro i hi
      have h3 := hr (i / 3) (by omega)
      have e0 := congrArg V3.r h3
      have e1 := congrArg V3.x h3
      have e2 := congrArg V3.y h3
      simp only [twist] at e0 e1 e2
      have hm := Nat.div_add_mod i 3
      have : i % 3 < 3 := Nat.mod_lt _ (by norm_num)
      rw [← hm]
      interval_cases i % 3
      · exact e0
      · exact e1
      · exact e2
    have hb := (C99_rest_iff_balanced _ _ _ _ _ _ (fun c hc => ⟨(h0.inv.contacts c hc).1, (h0.inv.contacts c hc).2.1⟩)
      (fun j hj => h0.inv.good.valid j hj) (by rw [hl]; exact h0.rest) hrest).1 ⟨l, pn, a, b, gs, law⟩
    rw [hl] at hfl
    exact unstable_unbalanced hl h0.floor (tower_contacts hT hp h0.standing h0.eps hth hcol) hg (hH _ fl hfl) hdt hb
  · intro hst k hk
    exact (C99_tower T hT hst H g hg.le hH lcp hx mi cfuel pairs hp w w' h0 (Relation.ReflTransGen.single ⟨fuel, dt, hdt.le, h⟩) k
      hk).1

/-! ## The steps return -/

/-- Sizes and friction the contact search and the solvability theorem allow. -/
structure Usual (T : Tower) : Prop where
  bricks : 0 < T.n
  μ : ∀ k ≤ T.n, 0 ≤ (T.blk k).μ
  size : ∀ k ≤ T.n, len ((T.blk k).w, (T.blk k).h) ≤ 10 ^ 9

theorem tower_searches (hT : T.Valid) (hU : Usual T) {pairs : List Body → List (ℕ × ℕ)} (hp : BroadPhase pairs)
    {bs : List Body} (hb : Posed T.bodies bs) {cfuel : ℕ} (hcf : 66 ≤ cfuel) (eps : ℝ) (f : Finder) :
    ∃ r, rejectNan (diffCollide cfuel (fun _ => []) pairs) eps f bs = .ok r := by
  have hat : ∀ b ∈ bs, ∃ k ≤ T.n, ∃ ops, b = (T.body k).run ops := by
    intro b hb'
    obtain ⟨i, hi, rfl⟩ := List.getElem_of_mem hb'
    have hbi : bs[i] = bodyAt bs i := by simp [bodyAt, List.getD_eq_getElem?_getD, hi]
    rw [hb.1] at hi
    obtain ⟨ops, ho⟩ := hb.2 i hi
    rw [tower_length] at hi
    rw [tower_bodyAt (by omega)] at ho
    exact ⟨i, by omega, ops, by rw [hbi, ho]⟩
  have hv := fun p hm => hp.valid bs p hm
  rw [C12_hulls_never_nan cfuel _ pairs eps f bs (fun p hm => ⟨(hv p hm).1, (hv p hm).2.1⟩)]
  · refine C94_search_total cfuel hcf _ pairs eps f bs (fun p hm => ⟨(hv p hm).1, (hv p hm).2.1⟩) ?_
    intro b hb'
    obtain ⟨k, hk, ops, rfl⟩ := hat b hb'
    exact .inr ⟨_, _, _, _, ops, tower_mkRect hT hk, rfl, hU.size k hk⟩
  · intro b hb'
    obtain ⟨k, hk, ops, rfl⟩ := hat b hb'
    rw [run_shape]; rfl

/-- A step of a world that holds a tower returns, stable or not, if the contact problem is solved exactly. -/
theorem tower_step_returns (hT : T.Valid) (hU : Usual T) {H : ForceHeap}
    (hok : ∀ t, ∃ fl, forceCat H t (T.n + 1) = .ok fl) {mi cfuel : ℕ} (hcf : 66 ≤ cfuel)
    {pairs : List Body → List (ℕ × ℕ)} (hp : BroadPhase pairs) {w : World (Option Mat) Finder}
    (h : TowerWorld T (rejectNan (diffCollide cfuel (fun _ => []) pairs)) w) (hps : w.post_stab = false)
    (hstr : w.strict_no_pen = false) (hwdt : 0 < w.dt) {dt : ℝ} (hdt : dt ≤ w.dt) {fuel : ℕ} (hfuel : 4 ≤ fuel) :
    ∃ w', w.step_dt (pdipmEnv 2 H exactLcp mi (rejectNan (diffCollide cfuel (fun _ => []) pairs))) fuel dt = .done w' := by
  have hl : w.bodies.length = T.n + 1 := by rw [h.standing.1.1, tower_length]
  obtain ⟨fl, hfl⟩ := hok w.t
  have hrest : AtRest w.bodies.length w.v := by rw [hl]; exact h.rest
  obtain ⟨v0, l0, pn0, a0, b0, g0, law0⟩ := C74_friction_inelastic w h.inv.joints h.inv.contacts
    (tower_pos hT h.standing) (by
      intro c hc
      obtain ⟨c1, c2, -, -⟩ := h.inv.contacts c hc
      have hμ : ∀ i < w.bodies.length, 0 ≤ (bodyAt w.bodies i).fric_coeff := by
        intro i hi
        have hcs := standing_consts h.standing (k := i) (by rw [tower_length]; omega)
        rw [tower_bodyAt (by omega)] at hcs
        simp only [Body.consts, Prod.mk.injEq] at hcs
        rw [hcs.2.2.2]
        exact hU.μ i (by omega)
      unfold meanFriction
      have := hμ _ c1
      have := hμ _ c2
      linarith)
    (by
      intro c hc
      obtain ⟨c1, c2, -, -⟩ := h.inv.contacts c hc
      rw [(atRest_contact hrest c1 c2).1, mul_zero])
    (impulse fl dt)
  have hne : w.contacts ≠ [] := by
    obtain ⟨f, f', hcol⟩ := h.search
    obtain ⟨⟨c, hc, -⟩, -⟩ := tower_search hT hp h.standing h.eps hcol hU.bricks
    exact List.ne_nil_of_mem hc
  obtain ⟨-, r, hr⟩ := C74_exact_engine_returns H mi w dt h.inv.joints h.inv.contacts hne fl (by rw [hl]; exact hfl)
    _ _ _ _ _ _ law0
  cases hst : w.step_dt (pdipmEnv 2 H exactLcp mi (rejectNan (diffCollide cfuel (fun _ => []) pairs))) fuel dt with
  | done w' => exact ⟨w', rfl⟩
  | running => exact absurd hst (C23_nonstrict_terminates _ fuel hfuel w dt h.inv.good hstr hwdt hdt)
  | raised e =>
    exfalso
    rcases C73_step_raises_from _ fuel w dt e h.inv.good hst with h1 | ⟨f, bs, hb, h1⟩ | ⟨h1, -⟩
    · have h1 : pdipmSolve 2 H exactLcp mi w dt = .error e := h1
      rw [hr] at h1; cases h1
    · obtain ⟨q, hq⟩ := tower_searches hT hU hp (Posed.trans h.standing.1 hb) hcf w.eps f
      have h1 : rejectNan (diffCollide cfuel (fun _ => []) pairs) w.eps f bs = .error e := h1
      rw [hq] at h1; cases h1
    · rw [hps] at h1; cases h1

/-- Its world can be built. -/
theorem tower_world (hT : T.Valid) (hU : Usual T) {H : ForceHeap} {lcp : LcpSolver} {mi cfuel : ℕ} (hcf : 66 ≤ cfuel)
    {pairs : List Body → List (ℕ × ℕ)} (hp : BroadPhase pairs) (fnd : Finder) (dt eps tol : ℝ) (heps : 0 ≤ eps) (ps : Bool) :
    ∃ w, mkWorld (pdipmEnv 2 H lcp mi (rejectNan (diffCollide cfuel (fun _ => []) pairs))) none fnd T.bodies
        [mkTotal T.bodies 0] dt eps tol ps false = .done w ∧
      TowerWorld T (rejectNan (diffCollide cfuel (fun _ => []) pairs)) w ∧ w.dt = dt ∧ w.eps = eps ∧ w.post_stab = ps ∧
      w.strict_no_pen = false := by
  obtain ⟨r, hr⟩ := tower_searches hT hU hp (bs := T.bodies) ⟨rfl, fun _ _ => ⟨[], rfl⟩⟩ hcf eps fnd
  have hbod : (initWorld (none : Option Mat) fnd T.bodies [mkTotal T.bodies 0] dt eps tol ps false).bodies = T.bodies := by
    apply List.ext_getElem
    · simp [initWorld, World.set_v]
    · intro i h1 h2
      simp only [initWorld, World.set_v, List.getElem_map, List.getElem_zipIdx]
      rw [Nat.zero_add, cat3_slice _ i (by simpa using h2), List.getElem_map]
  have hmk : mkWorld (pdipmEnv 2 H lcp mi (rejectNan (diffCollide cfuel (fun _ => []) pairs))) none fnd T.bodies
      [mkTotal T.bodies 0] dt eps tol ps false =
      .done { initWorld (none : Option Mat) fnd T.bodies [mkTotal T.bodies 0] dt eps tol ps false with
        contacts := r.2, fnd := r.1 } := by
    unfold mkWorld
    rw [if_neg (by rw [tower_length]; omega), if_pos (by
      intro j hj
      rw [List.mem_singleton] at hj
      subst hj
      simp [mkTotal, tower_length])]
    unfold World.find_contacts
    have : (pdipmEnv 2 H lcp mi (rejectNan (diffCollide cfuel (fun _ => []) pairs))).collide
        (initWorld (none : Option Mat) fnd T.bodies [mkTotal T.bodies 0] dt eps tol ps false).eps
        (initWorld (none : Option Mat) fnd T.bodies [mkTotal T.bodies 0] dt eps tol ps false).fnd
        (initWorld (none : Option Mat) fnd T.bodies [mkTotal T.bodies 0] dt eps tol ps false).bodies = .ok r := by
      rw [hbod]; exact hr
    rw [this]
    simp [Run.bind]
  exact ⟨_, hmk, tower_initial hT hp heps hmk, rfl, rfl, rfl, rfl⟩

/-- C99: such runs exist and go on for ever, if the contact problems are solved exactly. -/
theorem C99_tower_runs (T : Tower) (hT : T.Valid) (hst : T.Stable) (hU : Usual T) (H : ForceHeap) (g : ℝ) (hg : 0 ≤ g)
    (hH : T.Weigh H g) (hok : ∀ t, ∃ fl, forceCat H t (T.n + 1) = .ok fl) (mi cfuel : ℕ) (hcf : 66 ≤ cfuel)
    (pairs : List Body → List (ℕ × ℕ)) (hp : BroadPhase pairs) (fnd : Finder) (dt eps tol : ℝ) (hdt : 0 < dt) (heps : 0 ≤ eps) :
    ∃ ws : ℕ → World (Option Mat) Finder,
      mkWorld (pdipmEnv 2 H exactLcp mi (rejectNan (diffCollide cfuel (fun _ => []) pairs))) none fnd T.bodies
        [mkTotal T.bodies 0] dt eps tol false false = .done (ws 0) ∧
      (∀ i, (ws i).step_dt (pdipmEnv 2 H exactLcp mi (rejectNan (diffCollide cfuel (fun _ => []) pairs))) 4 dt =
        .done (ws (i + 1))) ∧
      ∀ i, ∀ k ≤ T.n, twist (ws i).v k = 0 ∧ (bodyAt (ws i).bodies k).p = ⟨0, (T.blk k).x, T.y k⟩ := by
  let P : World (Option Mat) Finder → Prop := fun w =>
    TowerWorld T (rejectNan (diffCollide cfuel (fun _ => []) pairs)) w ∧ w.post_stab = false ∧ w.strict_no_pen = false ∧ w.dt = dt
  have hstep : ∀ x : {w // P w}, ∃ y : {w // P w},
      x.1.step_dt (pdipmEnv 2 H exactLcp mi (rejectNan (diffCollide cfuel (fun _ => []) pairs))) 4 dt = .done y.1 := by
    rintro ⟨w, h, h1, h2, h3⟩
    obtain ⟨w', hw'⟩ := tower_step_returns hT hU hok (mi := mi) hcf hp h h1 h2 (by rw [h3]; exact hdt) (dt := dt) h3.ge
      (fuel := 4) le_rfl
    have hl : w.bodies.length = T.n + 1 := by rw [h.standing.1.1, tower_length]
    have key := C99_tower T hT hst H g hg hH exactLcp exactLcp_exact mi cfuel pairs hp w w' h
      (Relation.ReflTransGen.single ⟨4, dt, hdt.le, hw'⟩)
    obtain ⟨q1, q2, q3, q4, q5, q6, -⟩ := step_dt_params h.inv.good hw'
    refine ⟨⟨w', ⟨step_inv (C12_finder_ok cfuel _ pairs hp.valid) h.inv hw', ⟨Posed.trans h.standing.1 (posed_step h.inv.good hw'), ?_⟩, ?_, ?_,
      by rw [q2]; exact h.eps, ?_⟩, by rw [q4]; exact h1, by rw [q5]; exact h2, by rw [q1]; exact h3⟩, hw'⟩
    · intro i hi
      rw [tower_length] at hi
      rw [(key i (by omega)).2.1, tower_bodyAt (by omega)]
      rfl
    · obtain ⟨j, hj, j1, j2, j3⟩ := h.floor
      have hw := (step_dt_statics h.inv.good hw').2
      rw [hj] at hw
      obtain ⟨j', e1, e2⟩ : ∃ j', w'.joints = [j'] ∧ j'.wiring = j.wiring := by
        cases hjs : w'.joints with
        | nil => rw [hjs] at hw; simp at hw
        | cons a t =>
          rw [hjs] at hw
          simp at hw
          exact ⟨a, by rw [hw.2], hw.1⟩
      simp only [Joint.wiring, Prod.mk.injEq] at e2
      exact ⟨j', e1, by rw [e2.1, j1], by rw [e2.2.1, j2], by rw [e2.2.2, j3]⟩
    · intro i hi
      have h3 := (key (i / 3) (by omega)).1
      have e0 := congrArg V3.r h3
      have e1 := congrArg V3.x h3
      have e2 := congrArg V3.y h3
      simp only [twist] at e0 e1 e2
      have hm := Nat.div_add_mod i 3
      have : i % 3 < 3 := Nat.mod_lt _ (by norm_num)
      rw [← hm]
      interval_cases i % 3
      · exact e0
      · exact e1
      · exact e2
    · obtain ⟨f, f', hc⟩ := step_contacts h.inv.good hw'
      exact ⟨f, f', by rw [q2]; exact hc⟩
  choose F hF using hstep
  obtain ⟨w, hmk, hw, d1, d2, d3, d4⟩ := tower_world hT hU (H := H) (lcp := exactLcp) (mi := mi) hcf hp fnd dt eps tol heps false
  refine ⟨fun i => (F^[i] ⟨w, hw, d3, d4, d1⟩).1, hmk, fun i => ?_, fun i k hk => ?_⟩
  · simp only [Function.iterate_succ_apply']
    exact hF _
  · have := C99_tower T hT hst H g hg hH exactLcp exactLcp_exact mi cfuel pairs hp _ _
      (F^[i] ⟨w, hw, d3, d4, d1⟩).2.1 .refl k hk
    exact ⟨this.1, this.2.1⟩

/-- A `Gravity` object of its own attached to each of the first bricks. -/
def brickGravity (T : Tower) (g : ℝ) : ℕ → ForceHeap
  | 0 => ⟨fun _ => .gravity g none, fun _ => []⟩
  | n + 1 => (brickGravity T g n).add_force (n + 1) (T.blk (n + 1)).m (n + 1)

theorem brickGravity_at (T : Tower) (g : ℝ) (n k : ℕ) :
    (brickGravity T g n).attached k = (if 1 ≤ k ∧ k ≤ n then [k] else []) ∧
      (1 ≤ k → k ≤ n → (brickGravity T g n).obj k = .gravity g (some ⟨0, 0, (T.blk k).m * g⟩)) ∧
      (n < k → (brickGravity T g n).obj k = .gravity g none) := by
  induction n with
  | zero =>
    refine ⟨?_, ?_, ?_⟩
    · rw [if_neg (by omega)]; rfl
    · intro h1 h2; omega
    · intro _; rfl
  | succ n ih =>
    obtain ⟨i1, i2, i3⟩ := ih
    unfold brickGravity ForceHeap.add_force
    simp only
    by_cases hk : k = n + 1
    · subst hk
      rw [if_pos rfl, if_pos rfl, i1, i3 (by omega)]
      refine ⟨?_, ?_, ?_⟩
      · rw [if_neg (by omega), if_pos (by omega)]; rfl
      · intro _ _; simp [Force.set_body]
      · intro h; omega
    · rw [if_neg hk, if_neg hk, i1]
      refine ⟨?_, ?_, ?_⟩
      · by_cases h : 1 ≤ k ∧ k ≤ n
        · rw [if_pos h, if_pos (by omega)]
        · rw [if_neg h, if_neg (by omega)]
      · intro h1 h2; exact i2 h1 (by omega)
      · intro h; exact i3 (by omega)

theorem brickGravity_force (T : Tower) (g : ℝ) (n k : ℕ) (t : ℝ) : (brickGravity T g n).apply_forces k t =
    some (if 1 ≤ k ∧ k ≤ n then ⟨0, 0, (T.blk k).m * g⟩ else 0) := by
  obtain ⟨h1, h2, -⟩ := brickGravity_at T g n k
  unfold ForceHeap.apply_forces
  rw [h1]
  by_cases h : 1 ≤ k ∧ k ≤ n
  · rw [if_pos h, if_pos h]
    simp only [List.length_singleton, one_ne_zero, if_false, List.map_singleton, h2 h.1 h.2, Force.force, sumForces, Option.some.injEq]
    apply V3.ext <;> simp
  · rw [if_neg h, if_neg h]; simp

theorem brickGravity_ok (T : Tower) (g : ℝ) (n N : ℕ) (t : ℝ) : ∃ fl, forceCat (brickGravity T g n) t N = .ok fl := by
  induction N with
  | zero => exact ⟨[], rfl⟩
  | succ N ih =>
    obtain ⟨fl, h⟩ := ih
    unfold forceCat
    rw [h, brickGravity_force]
    exact ⟨_, rfl⟩

theorem brickGravity_weigh (T : Tower) (g : ℝ) : T.Weigh (brickGravity T g T.n) g := by
  intro t fl h k h1 h2
  obtain ⟨hl, hat⟩ := forceCat_length h
  have hk : k < fl.length := by omega
  have := hat k (by omega) hk
  rw [brickGravity_force, if_pos ⟨h1, h2⟩] at this
  injection this with this
  simp [List.getD_eq_getElem?_getD, hk, ← this]

/-! ## Overhang without limit -/

/-- Bricks of width 2 stacked so that each just does not fall: the `k`-th is `1/n + … + 1/(n-k+1)` off the floor block. -/
def harmonicTower (n : ℕ) : Tower where
  n := n
  y0 := 0
  blk := fun k => { x := ∑ i ∈ Finset.range k, 1 / ((n : ℝ) - i), w := 2, h := 1, m := 1, e := 1 / 2, μ := 1 / 2, eps := 1 / 10 }

theorem harmonic_step {n k : ℕ} (hk : k < n) : (((harmonicTower n).blk (k + 1)).x = ((harmonicTower n).blk k).x + 1 / ((n : ℝ) - k)) ∧
    0 < 1 / ((n : ℝ) - k) ∧ 1 / ((n : ℝ) - k) ≤ 1 := by
  have : (k : ℝ) + 1 ≤ n := by exact_mod_cast hk
  refine ⟨Finset.sum_range_succ _ _, by apply one_div_pos.2; linarith, ?_⟩
  rw [div_le_one (by linarith)]
  linarith

theorem harmonic_ends {n k : ℕ} (hk : k < n) : (harmonicTower n).left k = ((harmonicTower n).blk (k + 1)).x - 1 ∧
    (harmonicTower n).right k = ((harmonicTower n).blk k).x + 1 := by
  obtain ⟨h1, h2, h3⟩ := harmonic_step hk
  have hw : ∀ k, ((harmonicTower n).blk k).w = 2 := fun _ => rfl
  unfold Tower.left Tower.right
  rw [hw, hw]
  constructor
  · rw [max_eq_right (by linarith)]; norm_num
  · rw [min_eq_left (by linarith)]; norm_num

theorem harmonic_valid (n : ℕ) : (harmonicTower n).Valid := by
  constructor
  · intro k _; show (0 : ℝ) < 2; norm_num
  · intro k _; show (0 : ℝ) < 1; norm_num
  · intro k _; show (0 : ℝ) < 1; norm_num
  · intro k _; show (0 : ℝ) ≤ 1 / 10; norm_num
  · intro k hk
    have hk : k < n := hk
    obtain ⟨h1, h2, h3⟩ := harmonic_step hk
    obtain ⟨e1, e2⟩ := harmonic_ends hk
    rw [e1, e2]
    linarith

theorem harmonic_above (n : ℕ) : ∀ j ≤ n, (harmonicTower n).massFrom (n - j + 1) = j ∧
    (harmonicTower n).momentFrom (n - j + 1) = j * (((harmonicTower n).blk (n - j)).x + 1) := by
  intro j
  induction j with
  | zero =>
    intro _
    obtain ⟨h1, h2⟩ := massFrom_top (harmonicTower n)
    simp only [Nat.sub_zero, Nat.cast_zero, zero_mul]
    exact ⟨h1, h2⟩
  | succ j ih =>
    intro hj
    obtain ⟨i1, i2⟩ := ih (by omega)
    obtain ⟨k, rfl⟩ : ∃ k, n = k + (j + 1) := ⟨n - (j + 1), by omega⟩
    have e1 : k + (j + 1) - j = k + 1 := by omega
    have e2 : k + (j + 1) - (j + 1) = k := by omega
    rw [e1] at i1 i2
    rw [e2]
    have hn : (harmonicTower (k + (j + 1))).n = k + (j + 1) := rfl
    obtain ⟨h1, -⟩ := harmonic_step (n := k + (j + 1)) (k := k) (by omega)
    have hm : ∀ i, ((harmonicTower (k + (j + 1))).blk i).m = 1 := fun _ => rfl
    rw [massFrom_succ _ (by rw [hn]; omega), momentFrom_succ _ (by rw [hn]; omega), i1, i2, hm, h1]
    push_cast
    constructor
    · ring
    · have : (k : ℝ) + (j + 1) - k = j + 1 := by ring
      rw [this]
      have : (j : ℝ) + 1 ≠ 0 := by positivity
      field_simp
      ring

theorem harmonic_stable (n : ℕ) : (harmonicTower n).Stable := by
  intro k hk
  have hk : k < n := hk
  obtain ⟨h1, h2, h3⟩ := harmonic_step hk
  obtain ⟨e1, e2⟩ := harmonic_ends hk
  obtain ⟨a1, a2⟩ := harmonic_above n (n - k) (by omega)
  have e : n - (n - k) = k := by omega
  rw [e] at a1 a2
  rw [a1, a2, e1, e2]
  have hp : (0 : ℝ) ≤ (n - k : ℕ) := Nat.cast_nonneg _
  constructor
  · rw [mul_comm]
    exact mul_le_mul_of_nonneg_left (by linarith) hp
  · rw [mul_comm]

theorem harmonic_usual {n : ℕ} (hn : 0 < n) : Usual (harmonicTower n) := by
  refine ⟨hn, fun k _ => by show (0 : ℝ) ≤ 1 / 2; norm_num, fun k _ => ?_⟩
  show len ((2 : ℝ), (1 : ℝ)) ≤ _
  unfold len
  rw [Real.sqrt_le_left (by norm_num)]
  norm_num

theorem harmonic_reach (n : ℕ) : ((harmonicTower n).blk n).x = ∑ i ∈ Finset.range n, 1 / ((i : ℝ) + 1) := by
  show ∑ i ∈ Finset.range n, 1 / ((n : ℝ) - i) = _
  rw [← Finset.sum_range_reflect]
  refine Finset.sum_congr rfl fun i hi => ?_
  have hi := Finset.mem_range.1 hi
  congr 1
  rw [Nat.sub_sub, Nat.cast_sub (by omega)]
  push_cast
  ring

/-- C99: there are stacks of equal bricks, reaching as far beyond their base as one likes, that the simulator keeps
standing for ever on contact forces alone. -/
theorem C99_overhang (d : ℝ) (g : ℝ) (hg : 0 ≤ g) (fnd : Finder) (dt : ℝ) (hdt : 0 < dt) :
    ∃ n, d < ((harmonicTower n).blk n).x - ((harmonicTower n).blk 0).x ∧
      ∃ ws : ℕ → World (Option Mat) Finder,
        mkWorld (pdipmEnv 2 (brickGravity (harmonicTower n) g n) exactLcp 10 (rejectNan (diffCollide 66 (fun _ => []) allPairs)))
          none fnd (harmonicTower n).bodies [mkTotal (harmonicTower n).bodies 0] dt (1 / 10) (1 / 1000) false false = .done (ws 0) ∧
        (∀ i, (ws i).step_dt (pdipmEnv 2 (brickGravity (harmonicTower n) g n) exactLcp 10
          (rejectNan (diffCollide 66 (fun _ => []) allPairs))) 4 dt = .done (ws (i + 1))) ∧
        ∀ i, ∀ k ≤ n, (bodyAt (ws i).bodies k).p = ⟨0, ((harmonicTower n).blk k).x, (harmonicTower n).y k⟩ := by
  obtain ⟨n, h1, h2⟩ := ((Real.tendsto_sum_range_one_div_nat_succ_atTop.eventually_gt_atTop d).and
    (Filter.eventually_gt_atTop 0)).exists
  refine ⟨n, ?_, ?_⟩
  · rw [harmonic_reach]
    simpa [harmonicTower] using h1
  · obtain ⟨ws, a, b, c⟩ := C99_tower_runs (harmonicTower n) (harmonic_valid n) (harmonic_stable n) (harmonic_usual h2)
      (brickGravity (harmonicTower n) g n) g hg (brickGravity_weigh _ g) (fun t => brickGravity_ok _ _ _ _ _) 10 66 le_rfl
      allPairs allPairs_broad fnd dt (1 / 10) (1 / 1000) hdt (by norm_num)
    exact ⟨ws, a, b, fun i k hk => (c i k hk).2⟩

/-! ## Concrete towers -/

/-- Three bricks of width 2, the top one 11/6 beyond the base block: the hypotheses of `C99_tower`, `C99_tower_runs`,
`C99_propped_rests`, `C99_stays`, `C99_rest_iff_balanced` and `C99_tower_criterion` are met, with forces that are not zero. -/
example (fnd : Finder) : ∃ w w' : World (Option Mat) Finder,
    ((harmonicTower 3).blk 3).x = 11 / 6 ∧ (harmonicTower 3).Valid ∧ (harmonicTower 3).Stable ∧ Usual (harmonicTower 3) ∧
    (harmonicTower 3).Weigh (brickGravity (harmonicTower 3) 10 3) 10 ∧ BroadPhase allPairs ∧
    TowerWorld (harmonicTower 3) (rejectNan (diffCollide 66 (fun _ => []) allPairs)) w ∧ Thick (harmonicTower 3) w.eps ∧
    w.step_dt (pdipmEnv 2 (brickGravity (harmonicTower 3) 10 3) exactLcp 10 (rejectNan (diffCollide 66 (fun _ => []) allPairs)))
      4 (1 / 30) = .done w' ∧
    (∃ fl, forceCat (brickGravity (harmonicTower 3) 10 3) w.t 4 = .ok fl ∧ fl.getD 3 0 = ⟨0, 0, 10⟩ ∧
      Propped w.bodies.length w.joints w.contacts (fun i => fl.getD i 0) ∧
      ∃ l pn a b g, ContactLaw w.bodies w.joints w.contacts (impulse fl (1 / 30)) w.v w'.v l pn a b g) ∧
    AtRest w.bodies.length w.v ∧ AtRest w.bodies.length w'.v := by
  have hT := harmonic_valid 3
  have hU := harmonic_usual (n := 3) (by norm_num)
  have hok := fun t => brickGravity_ok (harmonicTower 3) 10 3 4 t
  have hwe := brickGravity_weigh (harmonicTower 3) 10
  obtain ⟨w, -, hw, d1, d2, d3, d4⟩ := tower_world hT hU (H := brickGravity (harmonicTower 3) 10 3) (lcp := exactLcp) (mi := 10) le_rfl
    allPairs_broad fnd (1 / 30) (1 / 10) (1 / 1000) (by norm_num) false
  have hl : w.bodies.length = 4 := by rw [hw.standing.1.1, tower_length]; rfl
  obtain ⟨w', hw'⟩ := tower_step_returns hT hU hok (mi := 10) le_rfl allPairs_broad hw d3 d4 (by rw [d1]; norm_num)
    (dt := 1 / 30) d1.ge (fuel := 4) le_rfl
  have hr := C99_tower _ hT (harmonic_stable 3) _ 10 (by norm_num) hwe exactLcp exactLcp_exact 10 66 allPairs allPairs_broad w w' hw
    (Relation.ReflTransGen.single ⟨4, 1 / 30, by norm_num, hw'⟩)
  refine ⟨w, w', ?_, hT, harmonic_stable 3, hU, hwe, allPairs_broad, hw, ?_, hw', ?_, by rw [hl]; exact hw.rest, ?_⟩
  · rw [harmonic_reach]; norm_num [Finset.sum_range_succ]
  · intro k _ _; rw [d2]; show (1 : ℝ) / 10 < 1; norm_num
  · obtain ⟨fl, l, pn, a, b, g, hfl, law⟩ := step_law exactLcp_exact hw.inv hw'
    rw [hl] at hfl
    refine ⟨fl, hfl, ?_, ?_, l, pn, a, b, g, law⟩
    · rw [hwe _ fl hfl 3 (by norm_num) le_rfl]
      show (⟨0, 0, 1 * 10⟩ : V3) = _
      norm_num
    · obtain ⟨f, f', hc⟩ := hw.search
      rw [hl]
      exact tower_propped hT (harmonic_stable 3) (by norm_num : (0 : ℝ) ≤ 10) allPairs_broad hw.standing hw.eps hc hw.floor
        (hwe _ fl hfl)
  · intro i hi
    rw [hl] at hi
    have h3 := (hr (i / 3) (by show i / 3 ≤ 3; omega)).1
    have e0 := congrArg V3.r h3
    have e1 := congrArg V3.x h3
    have e2 := congrArg V3.y h3
    simp only [twist] at e0 e1 e2
    have hm := Nat.div_add_mod i 3
    have : i % 3 < 3 := Nat.mod_lt _ (by norm_num)
    rw [← hm]
    interval_cases i % 3
    · exact e0
    · exact e1
    · exact e2

/-- A brick of width 2 that overhangs its base by 3/2. -/
def looseBrick : Tower where
  n := 1
  y0 := 0
  blk := fun k => { x := (k : ℝ) * (3 / 2), w := 2, h := 1, m := 1, e := 1 / 2, μ := 100, eps := 1 / 10 }

/-- It falls although the coefficient of friction is 100: its step returns, with a velocity that is not zero. -/
example (fnd : Finder) : ∃ w w' : World (Option Mat) Finder, looseBrick.Valid ∧ ¬ looseBrick.Stable ∧
    TowerWorld looseBrick (rejectNan (diffCollide 66 (fun _ => []) allPairs)) w ∧ Thick looseBrick w.eps ∧
    w.step_dt (pdipmEnv 2 (brickGravity looseBrick 10 1) exactLcp 10 (rejectNan (diffCollide 66 (fun _ => []) allPairs)))
      4 (1 / 30) = .done w' ∧ twist w.v 1 = 0 ∧ twist w'.v 1 ≠ 0 := by
  have hT : looseBrick.Valid := by
    constructor
    · intro k _; show (0 : ℝ) < 2; norm_num
    · intro k _; show (0 : ℝ) < 1; norm_num
    · intro k _; show (0 : ℝ) < 1; norm_num
    · intro k _; show (0 : ℝ) ≤ 1 / 10; norm_num
    · intro k hk
      have hk : k < 1 := hk
      interval_cases k
      norm_num [Tower.left, Tower.right, looseBrick]
  have hU : Usual looseBrick := by
    refine ⟨one_pos, fun k _ => by show (0 : ℝ) ≤ 100; norm_num, fun k _ => ?_⟩
    show len ((2 : ℝ), (1 : ℝ)) ≤ _
    unfold len
    rw [Real.sqrt_le_left (by norm_num)]
    norm_num
  have hns : ¬ looseBrick.Stable := by
    intro h
    have := (h 0 one_pos).2
    norm_num [Tower.right, looseBrick, Tower.momentFrom, Tower.massFrom] at this
  have hok := fun t => brickGravity_ok looseBrick 10 1 2 t
  have hwe := brickGravity_weigh looseBrick 10
  obtain ⟨w, -, hw, d1, d2, d3, d4⟩ := tower_world hT hU (H := brickGravity looseBrick 10 1) (lcp := exactLcp) (mi := 10) le_rfl
    allPairs_broad fnd (1 / 30) (1 / 10) (1 / 1000) (by norm_num) false
  obtain ⟨w', hw'⟩ := tower_step_returns hT hU hok (mi := 10) le_rfl allPairs_broad hw d3 d4 (by rw [d1]; norm_num)
    (dt := 1 / 30) d1.ge (fuel := 4) le_rfl
  have hth : Thick looseBrick w.eps := by intro k h1 h2; have h2 : k < 1 := h2; omega
  refine ⟨w, w', hT, hns, hw, hth, hw', atRest_twist hw.rest (by show 1 < 2; norm_num), fun h1 => hns ?_⟩
  refine (C99_tower_criterion _ hT _ 10 (by norm_num) hwe exactLcp exactLcp_exact 10 66 allPairs allPairs_broad w w' hw hth 4
    (1 / 30) (by norm_num) hw').1 ?_
  intro k hk
  have hk : k ≤ 1 := hk
  interval_cases k
  · obtain ⟨fl, l, pn, a, b, g, hfl, law⟩ := step_law exactLcp_exact hw.inv hw'
    exact (floorFixed_vels hw.floor _).1 law.joints
  · exact h1

end LcpPhysics
