import Verif.Spec.Demos
import Verif.Props.Lone
import Verif.Props.SearchTotal
import Verif.Props.Rolling

/-!
# C115: the scenes of the demos start, and their clocks show the time
-/

noncomputable section

namespace LcpPhysics
open Spec Demos

/-! ## Bodies of a scene -/

/-- A body as the constructors make it, possibly moved. -/
def MadeBody (b : Body) : Prop :=
  (∃ pos rad a ops, b = (mkCircle pos rad a).run ops ∧ 0 < rad ∧ rad ≤ 10 ^ 9 ∧ a.eps = 0.1) ∨
  ∃ pos dims a b0 ops, mkRect pos dims a = .ok b0 ∧ b = b0.run ops ∧ 0 < dims.1 ∧ 0 < dims.2 ∧ dims.1 + dims.2 ≤ 10 ^ 9 ∧
    a.eps = 0.1

/-- The geometry of a body lies in an upright box. -/
def InBox (b : Body) (c h : V2) : Prop := ∀ z ∈ geomRegion b.geom, |z.1 - c.1| ≤ h.1 ∧ |z.2 - c.2| ≤ h.2

theorem circle_inBox (pos : Arg) (rad : ℝ) (a : Params) :
    InBox (mkCircle pos rad a) pos.toV3.xy (rad + a.eps, rad + a.eps) := by
  intro z hz
  have hz : Spec.dist z pos.toV3.xy ≤ rad + a.eps := hz
  have h1 : |z.1 - pos.toV3.xy.1| ≤ Spec.dist z pos.toV3.xy := by
    unfold Spec.dist len
    refine Real.abs_le_sqrt ?_
    simp only [Prod.fst_sub, Prod.snd_sub]
    nlinarith [sq_nonneg (z.2 - pos.toV3.xy.2)]
  have h2 : |z.2 - pos.toV3.xy.2| ≤ Spec.dist z pos.toV3.xy := by
    unfold Spec.dist len
    refine Real.abs_le_sqrt ?_
    simp only [Prod.fst_sub, Prod.snd_sub]
    nlinarith [sq_nonneg (z.1 - pos.toV3.xy.1)]
  exact ⟨h1.trans hz, h2.trans hz⟩

theorem rect_inBox {pos : Arg} {dims : V2} {a : Params} {b : Body} (h : mkRect pos dims a = .ok b) (ops : List BodyOp) :
    InBox (b.run ops) (b.run ops).pos
      ((dims.1 / 2 + a.eps) * |Real.cos (b.run ops).rot| + (dims.2 / 2 + a.eps) * |Real.sin (b.run ops).rot|,
       (dims.1 / 2 + a.eps) * |Real.sin (b.run ops).rot| + (dims.2 / 2 + a.eps) * |Real.cos (b.run ops).rot|) := by
  intro z hz
  obtain ⟨w, ⟨h1, h2⟩, e⟩ := (rect_geomRegion h ops z).1 hz
  have h1 : |w.1| ≤ dims.1 / 2 + a.eps := by
    have : |w.1| ≤ (dims.1 + 2 * a.eps) / 2 := h1
    linarith
  have h2 : |w.2| ≤ dims.2 / 2 + a.eps := by
    have : |w.2| ≤ (dims.2 + 2 * a.eps) / 2 := h2
    linarith
  have e1 : z.1 - (b.run ops).pos.1 = Real.cos (b.run ops).rot * w.1 - Real.sin (b.run ops).rot * w.2 :=
    (congrArg Prod.fst e).symm
  have e2 : z.2 - (b.run ops).pos.2 = Real.sin (b.run ops).rot * w.1 + Real.cos (b.run ops).rot * w.2 :=
    (congrArg Prod.snd e).symm
  rw [e1, e2]
  have key : ∀ c s : ℝ, |c * w.1| + |s * w.2| ≤ (dims.1 / 2 + a.eps) * |c| + (dims.2 / 2 + a.eps) * |s| := by
    intro c s
    rw [abs_mul, abs_mul]
    nlinarith [mul_le_mul_of_nonneg_right h1 (abs_nonneg c), mul_le_mul_of_nonneg_right h2 (abs_nonneg s)]
  exact ⟨(abs_sub _ _).trans (key _ _), (abs_add_le _ _).trans (key _ _)⟩

theorem rect_fields {pos : Arg} {dims : V2} {a : Params} {b : Body} (h : mkRect pos dims a = .ok b) :
    b.p = pos.toV3 ∧ b.mass = a.mass ∧ b.v = a.vel.toV3 := by
  have hd : 0 < dims.1 * dims.2 := (C06_rect_accepts_iff pos dims a).1 ⟨b, h⟩
  refine ⟨(C06_rect_is_hull pos dims a b h).1, ?_⟩
  rw [mkRect_eq pos dims a hd] at h
  cases pos with
  | two q => injection h with h; subst h; exact ⟨rfl, rfl⟩
  | three q => injection h with h; subst h; exact ⟨rfl, rfl⟩

/-- What a constructor call of a scene makes. -/
theorem item_built (i : Item) (h : Fine i) : ∃ b, i.build = .ok b ∧ MadeBody b ∧ b.p = startPose i ∧
    InBox b (startPose i).xy (halfBox i) ∧ b.RectForm ∧ 0 < b.mass ∧ 0 < b.ang_inertia := by
  cases i with
  | circle pos rad a =>
    obtain ⟨h1, h2, h3, h4⟩ := h
    exact ⟨_, rfl, Or.inl ⟨pos, rad, a, [], rfl, h1, h2, h4⟩, rfl, circle_inBox pos rad a, trivial, h3,
      C07_circle_inertia_pos pos rad a h3 h1⟩
  | rect pos dims a =>
    obtain ⟨h1, h2, h3, h4, h5⟩ := h
    obtain ⟨b, hb⟩ := (C06_rect_accepts_iff pos dims a).2 (mul_pos h1 h2)
    obtain ⟨hp, hm, -⟩ := rect_fields hb
    have hbox := rect_inBox hb []
    have e1 : (b.run []).pos = pos.toV3.xy := by
      show b.pos = _
      unfold Body.pos; rw [hp]
    have e2 : (b.run []).rot = pos.toV3.r := by
      show b.rot = _
      unfold Body.rot; rw [hp]
    rw [e1, e2] at hbox
    exact ⟨b, hb, Or.inr ⟨pos, dims, a, b, [], hb, rfl, h1, h2, h3, h5⟩, hp, hbox, mkRect_rectForm hb, by rw [hm]; exact h4,
      C07_rect_inertia_pos pos dims a b h4 hb⟩
  | turned pos dims a w =>
    obtain ⟨h1, h2, h3, h4, h5⟩ := h
    obtain ⟨b, hb⟩ := (C06_rect_accepts_iff pos dims a).2 (mul_pos h1 h2)
    obtain ⟨hp, hm, hv⟩ := rect_fields hb
    set ops : List BodyOp := [.setV { b.v with r := w }, .move 1, .setV { b.v with r := 0 }] with hops
    have hbuild : (Item.turned pos dims a w).build = .ok (b.run ops) := by
      show (mkRect pos dims a).bind _ = _
      rw [hb]; rfl
    have hpose : (b.run ops).p = startPose (.turned pos dims a w) := by
      show (({ b with v := { b.v with r := w } } : Body).move 1).p = pos.toV3 + ({ a.vel.toV3 with r := w } : V3)
      rw [move_p, hp]
      show pos.toV3 + (1 : ℝ) • ({ b.v with r := w } : V3) = _
      rw [hv]
      apply V3.ext <;> simp
    have hbox := rect_inBox hb ops
    have e1 : (b.run ops).pos = (startPose (.turned pos dims a w)).xy := by unfold Body.pos; rw [hpose]
    have e2 : (b.run ops).rot = pos.toV3.r + w := by unfold Body.rot; rw [hpose]; rfl
    rw [e1, e2] at hbox
    have hc := run_consts b ops
    simp only [Body.consts, Prod.mk.injEq] at hc
    exact ⟨_, hbuild, Or.inr ⟨pos, dims, a, b, ops, hb, rfl, h1, h2, h3, h5⟩, hpose, hbox,
      run_rectForm b ops (mkRect_rectForm hb), by rw [hc.1, hm]; exact h4,
      by rw [hc.2.1]; exact C07_rect_inertia_pos pos dims a b h4 hb⟩

theorem built_all : ∀ (is : List Item), (∀ i ∈ is, Fine i) → ∃ bs, buildAll is = .ok bs ∧ bs.length = is.length ∧
    ∀ k < is.length, (is.getD k clock).build = .ok (bodyAt bs k)
  | [], _ => ⟨[], rfl, rfl, fun k hk => by simp at hk⟩
  | i :: is, h => by
    obtain ⟨b, hb, -⟩ := item_built i (h i (by simp))
    obtain ⟨bs, h1, h2, h3⟩ := built_all is fun j hj => h j (by simp [hj])
    refine ⟨b :: bs, ?_, by simp [h2], ?_⟩
    · unfold buildAll
      rw [hb, h1]; rfl
    · intro k hk
      cases k with
      | zero => exact hb
      | succ k => exact h3 k (by simpa using hk)

theorem made_plain {b : Body} (h : MadeBody b) : PlainBody b := by
  rcases h with ⟨pos, rad, a, ops, h1, -, h2, -⟩ | ⟨pos, dims, a, b0, ops, h1, h2, p1, p2, h3, -⟩
  · exact Or.inl ⟨pos, rad, a, ops, h1, h2⟩
  · refine Or.inr ⟨pos, dims, a, b0, ops, h1, h2, len_le_of (by norm_num) ?_⟩
    nlinarith

theorem made_alive {b : Body} (h : MadeBody b) : Alive b ∧ 0 ≤ b.rad ∧ b.eps = 0.1 := by
  rcases h with ⟨pos, rad, a, ops, h1, hr, -, he⟩ | ⟨pos, dims, a, b0, ops, h1, h2, p1, p2, h3, he⟩
  · subst h1
    refine ⟨⟨_, ops, .circle .., rfl⟩, ?_, (run_eps _ ops).trans he⟩
    unfold Body.rad
    rw [run_circle (mkCircle pos rad a) rfl ops]
    exact hr.le
  · subst h2
    have hs : (b0.run ops).isCircle = false := by
      rw [run_shape]
      rw [mkRect_eq pos dims a (mul_pos p1 p2)] at h1
      cases pos <;> (injection h1 with h1; subst h1; rfl)
    refine ⟨⟨_, ops, .rect _ _ _ _ h1 p1 p2, rfl⟩, ?_, ?_⟩
    · unfold Body.isCircle at hs
      unfold Body.rad
      split <;> simp_all
    · rw [run_eps, ← he]
      rw [mkRect_eq pos dims a (mul_pos p1 p2)] at h1
      cases pos <;> (injection h1 with h1; subst h1; rfl)

/-! ## The first contact search -/

/-- Bodies whose boxes are apart, or which are excluded from contact: the contact search returns, without contacts. -/
theorem apart_search (fuel : ℕ) (hfuel : 66 ≤ fuel) (nc : ℕ → List ℕ) (pairs : List Body → List (ℕ × ℕ))
    (hp : ∀ bs, ∀ p ∈ pairs bs, p.1 < bs.length ∧ p.2 < bs.length ∧ p.1 ≠ p.2) (f : Finder) (bs : List Body)
    (hb : ∀ k < bs.length, MadeBody (bodyAt bs k)) (c h : ℕ → V2) (hbox : ∀ k < bs.length, InBox (bodyAt bs k) (c k) (h k))
    (hs : ∀ k < bs.length, ∀ l < bs.length, k ≠ l → k ∉ nc l →
      (h k).1 + (h l).1 < |(c k).1 - (c l).1| ∨ (h k).2 + (h l).2 < |(c k).2 - (c l).2|) :
    ∃ f', rejectNan (diffCollide fuel nc pairs) (1 / 10) f bs = .ok (f', []) := by
  have hplain : ∀ b ∈ bs, PlainBody b := by
    intro b hm
    obtain ⟨i, hi, rfl⟩ := List.getElem_of_mem hm
    have := made_plain (hb i hi)
    simpa [bodyAt, List.getD_eq_getElem?_getD, hi] using this
  obtain ⟨⟨f', cs⟩, hr⟩ := C94_search_total fuel hfuel nc pairs (1 / 10) f bs
    (fun p hm => ⟨(hp bs p hm).1, (hp bs p hm).2.1⟩) hplain
  have hcs : cs = [] := by
    by_contra hne
    obtain ⟨ct, hc⟩ := List.exists_mem_of_ne_nil _ hne
    unfold diffCollide at hr
    cases ha : handleAll fuel nc (1 / 10) bs (pairs bs) f with
    | running => rw [ha] at hr; cases hr
    | raised e => rw [ha] at hr; cases hr
    | done r =>
      rw [ha] at hr
      injection hr with hr
      subst hr
      obtain ⟨p, hpm, g, g', cs', hx', hpair, hc'⟩ := handleAll_mem ha ct hc
      have hne' : cs' ≠ [] := List.ne_nil_of_mem hc'
      obtain ⟨h1, h2, h12⟩ := hp bs p hpm
      have hov : AabbOverlap (geomRegion (bodyAt bs p.1).geom) (geomRegion (bodyAt bs p.2).geom) := by
        obtain ⟨a1, r1, e1⟩ := made_alive (hb _ h1)
        obtain ⟨a2, r2, e2⟩ := made_alive (hb _ h2)
        by_cases hcirc : (bodyAt bs p.1).isCircle = true ∨ (bodyAt bs p.2).isCircle = true
        · exact C09_circle_contact_presented fuel (1 / 10) (by norm_num) bs g g' p.1 p.2 cs' hpair hne' a1 a2 r1 r2
            (by rw [e1]; norm_num) (by rw [e2]; norm_num) (by rw [e1, e2]; norm_num) hcirc
        · push Not at hcirc
          have c1 : (bodyAt bs p.1).isCircle = false := by simpa using hcirc.1
          have c2 : (bodyAt bs p.2).isCircle = false := by simpa using hcirc.2
          rcases hb _ h1 with ⟨pos, rad, a, ops, q1, -⟩ | ⟨pos1, dims1, A1, b1, o1, q1, ho1, x1, x2, -, x3⟩
          · rw [q1, run_shape] at c1; cases c1
          rcases hb _ h2 with ⟨pos, rad, a, ops, q2, -⟩ | ⟨pos2, dims2, A2, b2, o2, q2, ho2, y1, y2, -, y3⟩
          · rw [q2, run_shape] at c2; cases c2
          unfold handlePair at hpair
          simp only [c1, c2, Bool.false_eq_true, and_self, or_self, if_false] at hpair
          cases hh : hullHull (1 / 10) (bodyAt bs p.1).pos (bodyAt bs p.2).pos (bodyAt bs p.1).verts (bodyAt bs p.2).verts
              p.1 p.2 g with
          | error e => rw [hh] at hpair; cases hpair
          | ok r =>
            rw [hh] at hpair
            injection hpair with hpair
            obtain ⟨-, hpair⟩ := Prod.ext_iff.1 hpair
            have hpts : r.2 ≠ [] := by
              rintro h0
              apply hne'
              exact (show _ = cs' from hpair).symm.trans (by simp [h0])
            rw [ho1, ho2] at hh ⊢
            exact C09_rect_contact_presented _ _ _ _ _ _ _ _ q1 q2 x1 x2 y1 y2 o1 o2 (1 / 10) (by rw [x3]; norm_num)
              (by rw [y3]; norm_num) (by rw [x3, y3]; norm_num) p.1 p.2 g r.1 r.2 hh hpts
      obtain ⟨⟨z, hz, y, hy, hzy⟩, z', hz', y', hy', hzy'⟩ := hov
      have k1 := (hbox _ h1 z hz).1
      have k2 := (hbox _ h2 y hy).1
      have k3 := (hbox _ h1 z' hz').2
      have k4 := (hbox _ h2 y' hy').2
      rw [hzy] at k1
      rw [hzy'] at k3
      rcases hs _ h1 _ h2 h12 hx' with hq | hq
      · have := abs_sub_le (c p.1).1 y.1 (c p.2).1
        rw [abs_sub_comm (c p.1).1 y.1] at this
        linarith
      · have := abs_sub_le (c p.1).2 y'.2 (c p.2).2
        rw [abs_sub_comm (c p.1).2 y'.2] at this
        linarith
  subst hcs
  refine ⟨f', ?_⟩
  unfold rejectNan
  rw [hr]
  rfl

/-! ## A scene that is well made -/

/-- What makes a scene start. -/
structure WellMade (d : Demo) : Prop where
  some : d.items ≠ []
  fine : ∀ i ∈ d.items, Fine i
  apart : ∀ k < d.items.length, ∀ l < d.items.length, k < l → (k ∈ d.nc l ∧ l ∈ d.nc k) ∨
    StartApart (d.items.getD k clock) (d.items.getD l clock)
  joints : ∀ bs, ∀ j ∈ d.joints bs, j.i1 < d.items.length ∧ (∀ k ∈ j.i2, k < d.items.length ∧ j.i1 ≠ k) ∧
    j.update_pos bs = j
  tree : ∀ bs, JointTree (d.joints bs)

theorem startApart_comm {i j : Item} (h : StartApart i j) : StartApart j i := by
  rcases h with h | h
  · left; rw [abs_sub_comm]; linarith
  · right; rw [abs_sub_comm]; linarith

/-- C115: a well made scene starts: the world is built, whatever pairs of distinct bodies the broad phase presents and whatever the
random choices of the contact search are, with every body where it was put and no contacts. -/
theorem C115_starts (d : Demo) (h : WellMade d) (lcp : LcpSolver) (mi cfuel : ℕ) (hcf : 66 ≤ cfuel)
    (pairs : List Body → List (ℕ × ℕ)) (hp : ∀ bs, ∀ p ∈ pairs bs, p.1 < bs.length ∧ p.2 < bs.length ∧ p.1 ≠ p.2)
    (fnd : Finder) :
    ∃ w bs, d.start lcp mi (rejectNan (diffCollide cfuel d.nc pairs)) fnd = .done w ∧ buildAll d.items = .ok bs ∧ w.bodies = bs ∧
      w.joints = d.joints bs ∧ w.contacts = [] ∧ w.t = 0 ∧ w.dt = 1 / 30 ∧ EngineInv w ∧ JointTree w.joints ∧
      (∀ b ∈ w.bodies, 0 < b.mass ∧ 0 < b.ang_inertia) ∧ w.bodies.length = d.items.length ∧
      ∀ k < d.items.length, (bodyAt w.bodies k).p = startPose (d.items.getD k clock) := by
  obtain ⟨bs, hbs, hlen, hget⟩ := built_all d.items h.fine
  have hmem : ∀ k < d.items.length, d.items.getD k clock ∈ d.items := by
    intro k hk
    rw [List.getD_eq_getElem?_getD, List.getElem?_eq_getElem hk]
    exact List.getElem_mem hk
  have hitem : ∀ k < d.items.length, MadeBody (bodyAt bs k) ∧ (bodyAt bs k).p = startPose (d.items.getD k clock) ∧
      InBox (bodyAt bs k) (startPose (d.items.getD k clock)).xy (halfBox (d.items.getD k clock)) ∧ (bodyAt bs k).RectForm ∧
      0 < (bodyAt bs k).mass ∧ 0 < (bodyAt bs k).ang_inertia := by
    intro k hk
    obtain ⟨b, hb, hrest⟩ := item_built _ (h.fine _ (hmem k hk))
    rw [hget k hk] at hb
    injection hb with hb
    rw [hb]; exact hrest
  have hat : ∀ b ∈ bs, ∃ k < d.items.length, b = bodyAt bs k := by
    intro b hb
    obtain ⟨k, hk, rfl⟩ := List.getElem_of_mem hb
    exact ⟨k, by omega, by simp [bodyAt, List.getD_eq_getElem?_getD, hk]⟩
  obtain ⟨f', hcol⟩ := apart_search cfuel hcf d.nc pairs hp fnd bs (fun k hk => (hitem k (by omega)).1)
    (fun k => (startPose (d.items.getD k clock)).xy) (fun k => halfBox (d.items.getD k clock))
    (fun k hk => (hitem k (by omega)).2.2.1) (by
      intro k hk l hl hkl hn
      rcases lt_or_gt_of_ne hkl with hlt | hlt
      · rcases h.apart k (by omega) l (by omega) hlt with hx | hx
        · exact absurd hx.1 hn
        · exact hx
      · rcases h.apart l (by omega) k (by omega) hlt with hx | hx
        · exact absurd hx.2 hn
        · exact startApart_comm hx)
  set env := pdipmEnv 2 d.forces lcp mi (rejectNan (diffCollide cfuel d.nc pairs)) with henv
  set W := initWorld (none : Option Mat) fnd bs (d.joints bs) (1 / 30) (1 / 10) (1 / 1000000) d.post_stab true with hW
  have hvel : W.bodies = bs := by
    apply List.ext_getElem
    · simp [W, initWorld, World.set_v]
    · intro i h1 h2
      simp only [W, initWorld, World.set_v, List.getElem_map, List.getElem_zipIdx]
      rw [Nat.zero_add, cat3_slice _ i (by simpa using h2), List.getElem_map]
  have hmk : mkWorld env none fnd bs (d.joints bs) (1 / 30) (1 / 10) (1 / 1000000) d.post_stab true =
      .done { W with contacts := [], fnd := f' } := by
    unfold mkWorld
    rw [if_neg (by rw [hlen]; exact fun h0 => h.some (List.length_eq_zero_iff.1 h0)), if_pos (by
      intro j hj
      obtain ⟨h1, h2, -⟩ := h.joints bs j hj
      exact ⟨by omega, fun k hk => by have := (h2 k hk).1; omega⟩)]
    unfold World.find_contacts
    have : env.collide W.eps W.fnd W.bodies = .ok (f', []) := by
      rw [hvel]; exact hcol
    rw [this]
    simp only [Run.bind, if_true]
    rw [if_pos]
    intro c hc
    cases hc
  refine ⟨{ W with contacts := [], fnd := f' }, bs, ?_, hbs, ?_, rfl, rfl, rfl, rfl, ⟨?_, ?_, ?_, ?_⟩, h.tree bs, ?_, ?_, ?_⟩
  · unfold Demo.start
    rw [hbs]
    exact hmk
  · exact hvel
  · refine C30_mkWorld_good _ _ _ _ _ _ _ _ _ _ _ ?_ ?_ hmk
    · intro b hb
      obtain ⟨k, hk, rfl⟩ := hat b hb
      exact (hitem k hk).2.2.2.1
    · intro j hj
      exact (h.joints bs j hj).2.2
  · intro j hj
    obtain ⟨h1, h2, -⟩ := h.joints bs j hj
    show j.i1 < W.bodies.length ∧ ∀ k ∈ j.i2, k < W.bodies.length ∧ j.i1 ≠ k
    rw [hvel, hlen]
    exact ⟨h1, h2⟩
  · intro c hc
    cases hc
  · intro inv hi
    cases hi
  · show ∀ b ∈ W.bodies, _
    rw [hvel]
    intro b hb
    obtain ⟨k, hk, rfl⟩ := hat b hb
    exact (hitem k hk).2.2.2.2
  · show W.bodies.length = _
    rw [hvel, hlen]
  · intro k hk
    show (bodyAt W.bodies k).p = _
    rw [hvel]
    exact (hitem k hk).2.1

end LcpPhysics
