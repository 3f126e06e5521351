import Verif.Props.Islands
import Verif.Props.Contacts
import Verif.Props.History

/-!
# C79: contacts never turn a circle unless there is friction

The contact points reported on a circle lie on the line of the normal through its centre.
-/

noncomputable section

namespace LcpPhysics
open Spec

theorem det_smul_self (s : ℝ) (n : V2) : det (s • n) n = 0 := by
  simp only [det, Prod.smul_fst, Prod.smul_snd, smul_eq_mul]; ring

theorem circleCircle_central (eps r1 r2 : ℝ) (pos1 pos2 : V2) :
    ∀ p ∈ circleCircle eps r1 r2 pos1 pos2, det p.p1 p.normal = 0 ∧ det p.p2 p.normal = 0 := by
  intro p hp
  unfold circleCircle at hp
  simp only at hp
  split at hp
  · simp at hp
  · simp only [List.mem_singleton] at hp
    subst hp
    simp only
    generalize (1 / nrm (pos1 - pos2)) • (pos1 - pos2) = n
    refine ⟨?_, det_smul_self _ _⟩
    rw [smul_neg, ← neg_smul]
    exact det_smul_self _ _

theorem satCircleStep_central {eps rad : ℝ} {pos1 pos2 : V2} {verts : List V2} {st : SatRun} {idx : ℕ}
    (h : ∀ c d l, st = .go (some c) d l → det c.pt1 c.normal = 0) :
    ∀ c d l, satCircleStep eps rad pos1 pos2 verts st idx = .go (some c) d l → det c.pt1 c.normal = 0 := by
  intro c d l hs
  unfold satCircleStep at hs
  cases st with
  | gap i => cases hs
  | go best bd last =>
    simp only at hs
    split_ifs at hs
    · exact h c d l (by rw [hs])
    · simp only [SatRun.go.injEq, Option.some.injEq] at hs
      obtain ⟨hs, -, -⟩ := hs
      subst hs
      simp only
      generalize (1 / nrm _) • left_orthogonal _ = n
      generalize dot n _ - rad + rad = q
      have : pos1 - pos2 + -q • n + pos2 - pos1 = (-q) • n := by abel
      rw [this]
      exact det_smul_self _ _
    · exact h c d l (by rw [hs])

theorem satCircle_central {eps rad : ℝ} {pos1 pos2 : V2} {verts : List V2} {start : ℕ} {c : CHull} {d : ℝ} {l : ℕ}
    (h : satCircle eps rad pos1 pos2 verts start = .go (some c) d l) : det c.pt1 c.normal = 0 := by
  have key : ∀ (L : List ℕ) (st : SatRun), (∀ c d l, st = .go (some c) d l → det c.pt1 c.normal = 0) →
      ∀ c d l, L.foldl (satCircleStep eps rad pos1 pos2 verts) st = .go (some c) d l → det c.pt1 c.normal = 0 := by
    intro L
    induction L with
    | nil => intro st hst; exact hst
    | cons i L ih => intro st hst; exact ih _ (satCircleStep_central hst)
  exact key _ _ (by intro c d l h; cases h) c d l h

theorem circleHull_central {fuel : ℕ} {eps rad : ℝ} {pos1 pos2 : V2} {verts : List V2} {seed last : ℕ}
    {r : Option CHull × ℕ} (h : circleHull fuel eps rad pos1 pos2 verts seed last = .done r) (c : CHull)
    (hc : r.1 = some c) : det c.pt1 c.normal = 0 := by
  unfold circleHull at h
  cases hg : gjkLoop verts (pos1 - pos2) fuel [seed % verts.length] with
  | running => rw [hg] at h; cases h
  | raised e => rw [hg] at h; cases h
  | done g =>
    rw [hg] at h
    simp only [Run.bind] at h
    split at h
    · injection h with h
      subst h
      simp only [shallowContact] at hc
      split at hc
      · cases hc
      · injection hc with hc
        subst hc
        simp only
        simp only [det, Prod.smul_fst, Prod.smul_snd, smul_eq_mul, Prod.fst_neg, Prod.snd_neg]
        ring
    · cases hs : satCircle eps rad pos1 pos2 verts last with
      | gap i => rw [hs] at h; injection h with h; subst h; cases hc
      | go best d l =>
        rw [hs] at h
        cases best with
        | none => cases h
        | some b =>
          injection h with h
          subst h
          injection hc with hc
          subst hc
          exact satCircle_central hs

/-- C79: whatever the poses, the hidden caches and the random starts, a contact on a circle acts along the line of its
normal through the centre of the circle. -/
theorem C79_circle_contacts_central (fuel : ℕ) (nc : ℕ → List ℕ) (pairs : List Body → List (ℕ × ℕ)) (eps : ℝ)
    (f f' : Finder) (bs : List Body) (cs : List Contact)
    (h : diffCollide fuel nc pairs eps f bs = .ok (f', cs)) (c : Contact) (hc : c ∈ cs) :
    ((bodyAt bs c.i1).isCircle = true → det c.p1 c.normal = 0) ∧
    ((bodyAt bs c.i2).isCircle = true → det c.p2 c.normal = 0) := by
  unfold diffCollide at h
  cases hr : handleAll fuel nc eps bs (pairs bs) f with
  | running => rw [hr] at h; cases h
  | raised e => rw [hr] at h; cases h
  | done r =>
    rw [hr] at h
    simp only [Run.toExcept] at h
    injection h with h
    subst h
    obtain ⟨p, hp, g, g', cs', hx, hpair, hc'⟩ := handleAll_mem hr c hc
    obtain ⟨e1, e2, -⟩ := C12_pair_wellformed fuel eps bs g g' p.1 p.2 cs' hpair c hc'
    rw [e1, e2]
    unfold handlePair at hpair
    simp only at hpair
    by_cases h1 : (bodyAt bs p.1).isCircle = true ∧ (bodyAt bs p.2).isCircle = true
    · rw [if_pos h1] at hpair
      injection hpair with h
      injection h with _ h
      subst h
      obtain ⟨q, hq, rfl⟩ := List.mem_map.1 hc'
      have := circleCircle_central _ _ _ _ _ q hq
      exact ⟨fun _ => this.1, fun _ => this.2⟩
    rw [if_neg h1] at hpair
    by_cases h2 : (bodyAt bs p.1).isCircle = true ∨ (bodyAt bs p.2).isCircle = true
    · rw [if_pos h2] at hpair
      generalize hr : circleHull fuel eps _ _ _ _ _ _ = r at hpair
      cases r with
      | running => cases hpair
      | raised e => cases hpair
      | done r =>
        simp only [Run.bind] at hpair
        injection hpair with h
        injection h with _ h
        subst h
        obtain ⟨q, hq, rfl⟩ := List.mem_map.1 hc'
        obtain ⟨k, hk, rfl⟩ := List.mem_map.1 hq
        have := circleHull_central hr k (Option.mem_toList.1 hk)
        cases hb2 : (bodyAt bs p.2).isCircle with
        | true =>
          simp only [if_true, CHull.toPt]
          refine ⟨fun h => absurd ⟨h, hb2⟩ h1, fun _ => ?_⟩
          simp only [det, Prod.fst_neg, Prod.snd_neg] at this ⊢
          linarith
        | false =>
          simp only [Bool.false_eq_true, if_false, CHull.toPt]
          exact ⟨fun _ => this, fun h => by cases h⟩
    · push Not at h2
      exact ⟨fun h => absurd h h2.1, fun h => absurd h h2.2⟩

/-- C79: a body held by no constraint whose contacts are central and frictionless keeps its spin, up to the applied
torque. -/
theorem C79_spin_kept (bs : List Body) (js : List Joint) (cs : List Contact) (f : ℕ → V3) (v v' l : Vec)
    (pn a b g : ℕ → ℝ) (h : ContactLaw bs js cs f v v' l pn a b g) (i : ℕ) (hi : i < bs.length)
    (hj : ∀ j ∈ js, j.i1 ≠ i ∧ i ∉ j.i2)
    (hc : ∀ c ∈ cs, (c.i1 = i → det c.p1 c.normal = 0) ∧ (c.i2 = i → det c.p2 c.normal = 0))
    (hmu : ∀ c ∈ cs, c.i1 = i ∨ c.i2 = i → meanFriction bs c = 0) (hI : 0 < (bodyAt bs i).ang_inertia) :
    v' (3 * i) = v (3 * i) + (f i).r / (bodyAt bs i).ang_inertia := by
  set u : Vec := onlyOn (· = i) fun k => if k = 3 * i then 1 else 0 with hu
  have hd := h.dynamics u
  have q2 : 3 * i + 1 ≠ 3 * i := by omega
  have q3 : 3 * i + 2 ≠ 3 * i := by omega
  have ht : ∀ k, twist u k = if k = i then ⟨1, 0, 0⟩ else 0 := by
    intro k
    rw [hu, twist_onlyOn]
    split
    · rename_i hk
      subst hk
      simp [twist]
    · rfl
  have hj0 : jointPower js l u = 0 := by
    apply jointPower_zero
    intro x hx
    obtain ⟨j, hjm, hx⟩ := List.mem_flatMap.1 hx
    refine jointVel_out (S := (· = i)) ?_ _ x hx
    simp only [holds, decide_eq_true_eq, not_or, not_exists, not_and]
    exact ⟨(hj j hjm).1, fun k hk hki => (hj j hjm).2 (hki ▸ hk)⟩
  have hc0 : contactPower cs pn (fun i => a i - b i) u = 0 := by
    unfold contactPower
    refine Finset.sum_eq_zero fun k hk => ?_
    have hk := Finset.mem_range.1 hk
    rw [List.getElem?_eq_getElem hk]
    simp only
    have hm := List.getElem_mem hk
    by_cases hb : cs[k].i1 = i ∨ cs[k].i2 = i
    · have h0 := h.cone k hk
      rw [hmu _ hm hb] at h0
      have hn := h.nonneg k hk
      have ha : a k - b k = 0 := by
        have : a k = 0 := by linarith [h0.1]
        have : b k = 0 := by linarith [h0.1]
        linarith
      have hnv : normalVel cs[k] u = 0 := by
        have := hc _ hm
        unfold normalVel contactVel
        rw [ht, ht]
        by_cases h1 : cs[k].i1 = i
        · by_cases h2 : cs[k].i2 = i
          · have e1 := this.1 h1
            have e2 := this.2 h2
            rw [if_pos h1, if_pos h2]
            simp only [Spec.inner, pointVel, det, Prod.fst_sub, Prod.snd_sub] at e1 e2 ⊢
            linarith
          · have e1 := this.1 h1
            rw [if_pos h1, if_neg h2, pointVel_zero]
            simp only [Spec.inner, pointVel, det, Prod.fst_sub, Prod.snd_sub, Prod.fst_zero, Prod.snd_zero] at e1 ⊢
            linarith
        · by_cases h2 : cs[k].i2 = i
          · have e2 := this.2 h2
            rw [if_neg h1, if_pos h2, pointVel_zero]
            simp only [Spec.inner, pointVel, det, Prod.fst_sub, Prod.snd_sub, Prod.fst_zero, Prod.snd_zero] at e2 ⊢
            linarith
          · exact absurd hb (by tauto)
      rw [ha, hnv]; ring
    · have ht : ¬ touches (· = i) cs[k] = true := by simpa [touches] using hb
      simp [normalVel, slipVel, hu, contactVel_out ht, Spec.inner]
  have hs : (Finset.range bs.length).filter (· = i) = {i} := by
    ext k
    simp only [Finset.mem_filter, Finset.mem_range, Finset.mem_singleton]
    constructor
    · exact fun h => h.2
    · rintro rfl; exact ⟨hi, rfl⟩
  rw [hj0, hc0, hu, momentumPower_onlyOn, momentumPower_onlyOn, forcePower_onlyOn, hs] at hd
  simp only [Finset.sum_singleton, twist, add_zero, if_true, if_neg q2, if_neg q3, mul_zero, mul_one] at hd
  field_simp
  linarith

variable {φ : Type}

/-- What neither motion nor velocity changes is unchanged by a step. -/
theorem step_dt_keeps {σ α : Type} (g : Body → α) (hmove : ∀ b d, g (b.move d) = g b)
    (hvel : ∀ (b : Body) (v : V3), g { b with v := v } = g b) {env : Env σ φ} {fuel : ℕ} {w w' : World σ φ} {dt : ℝ}
    (hg : w.Good) (h : w.step_dt env fuel dt = .done w') : w'.bodies.map g = w.bodies.map g := by
  have hset : ∀ (w : World σ φ) (v : Vec), (w.set_v v).bodies.map g = w.bodies.map g := by
    intro w v
    simp only [World.set_v, List.map_map]
    apply List.ext_getElem
    · simp
    · intro n h1 h2
      simp [hvel]
  have hmv : ∀ (bs : List Body) (d : ℝ), (bs.map fun b => b.move d).map g = bs.map g := by
    intro bs d
    rw [List.map_map]
    exact List.map_congr_left fun b _ => hmove b d
  obtain ⟨e, v, k, w1, w2, -, -, rfl, hg1, ⟨fk, f', cs, -, -, rfl⟩, -, hend⟩ := step_dt_done hg h
  rcases hend with ⟨-, rfl⟩ | ⟨-, dp, f2, cs2, -, w3, rfl, -, rfl⟩
  · exact (hmv _ _).trans (hset _ _)
  · refine (hset _ _).trans ?_
    refine (hmv _ _).trans ?_
    refine (hset _ _).trans ?_
    exact (hmv _ _).trans (hset _ _)

/-- One step obeys the contact law with the contacts known at its beginning. -/
theorem step_law {H : ForceHeap} {lcp : LcpSolver} {mi : ℕ}
    {collide : ℝ → φ → List Body → Except Err (φ × List Contact)}
    (hx : Exact lcp) {w w' : World (Option Mat) φ} {fuel : ℕ} {dt : ℝ} (hw : EngineInv w)
    (h : w.step_dt (pdipmEnv 2 H lcp mi collide) fuel dt = .done w') :
    ∃ fl l pn a b g, forceCat H w.t w.bodies.length = .ok fl ∧
      ContactLaw w.bodies w.joints w.contacts (impulse fl dt) w.v w'.v l pn a b g := by
  obtain ⟨e, v, k, w1, w2, hsol, -, rfl, hg1, ⟨fk, f', cs, -, -, rfl⟩, -, hend⟩ := step_dt_done hw.good h
  have := C38_engine_contact_law H lcp mi w dt e v hw.joints hw.contacts hw.cache.ok hx hsol
  rcases hend with ⟨-, rfl⟩ | ⟨-, dp, f2, cs2, -, w3, rfl, -, rfl⟩ <;> exact this

/-- The contacts after a step come from a contact search on the bodies as they are then. -/
theorem step_contacts {σ : Type} {env : Env σ φ} {fuel : ℕ} {w w' : World σ φ} {dt : ℝ}
    (hg : w.Good) (h : w.step_dt env fuel dt = .done w') :
    ∃ f f', env.collide w.eps f w'.bodies = .ok (f', w'.contacts) := by
  obtain ⟨e, v, k, w1, w2, hsol, -, rfl, hg1, ⟨fk, f', cs, hcs, -, rfl⟩, -, hend⟩ := step_dt_done hg h
  rcases hend with ⟨-, rfl⟩ | ⟨-, dp, f2, cs2, -, w3, rfl, h2, rfl⟩
  · exact ⟨fk, f', hcs⟩
  · exact ⟨_, f2, h2⟩

theorem isCircle_move (b : Body) (d : ℝ) : (b.move d).isCircle = b.isCircle := by
  unfold Body.move Body.set_p
  cases hs : b.shape <;> simp [Body.isCircle, Body.baseSetP, hs]

theorem bodyAt_of_map {α : Type} {g : Body → α} {bs bs' : List Body} (h : bs'.map g = bs.map g) (i : ℕ) :
    g (bodyAt bs' i) = g (bodyAt bs i) := by
  have := congrArg (fun l : List α => l[i]?) h
  simp only [List.getElem?_map] at this
  simp only [bodyAt, List.getD_eq_getElem?_getD]
  cases h1 : bs[i]? <;> cases h2 : bs'[i]? <;> simp_all

/-- Every contact on a circle is central. -/
def CentralContacts (bs : List Body) (cs : List Contact) : Prop :=
  ∀ c ∈ cs, ((bodyAt bs c.i1).isCircle = true → det c.p1 c.normal = 0) ∧
    ((bodyAt bs c.i2).isCircle = true → det c.p2 c.normal = 0)

/-- C79, along whole runs: in a world without friction a circle that is held by no constraint and feels no torque
keeps its angular velocity forever, whatever it collides with, with or without post-stabilization. -/
theorem C79_never_spins (H : ForceHeap) (lcp : LcpSolver) (mi : ℕ)
    (collide : ℝ → φ → List Body → Except Err (φ × List Contact)) (hfind : FinderOk collide)
    (hcen : ∀ eps f bs f' cs, collide eps f bs = .ok (f', cs) → CentralContacts bs cs)
    (hx : Exact lcp) (w0 w : World (Option Mat) φ) (h0 : EngineInv w0) (hc0 : CentralContacts w0.bodies w0.contacts)
    (h : Reaches (pdipmEnv 2 H lcp mi collide) w0 w) (i : ℕ) (hi : i < w0.bodies.length)
    (hcirc : (bodyAt w0.bodies i).isCircle = true) (hI : 0 < (bodyAt w0.bodies i).ang_inertia)
    (hmu : ∀ b ∈ w0.bodies, b.fric_coeff = 0) (hj : ∀ j ∈ w0.joints, j.i1 ≠ i ∧ i ∉ j.i2)
    (hf : ∀ t fl, forceCat H t w0.bodies.length = .ok fl → (fl.getD i 0).r = 0) :
    (bodyAt w.bodies i).v.r = (bodyAt w0.bodies i).v.r := by
  have key : EngineInv w ∧ SameStatics w0 w ∧ w.bodies.map Body.isCircle = w0.bodies.map Body.isCircle ∧
      CentralContacts w.bodies w.contacts ∧ w.v (3 * i) = w0.v (3 * i) := by
    induction h with
    | refl => exact ⟨h0, ⟨rfl, rfl⟩, rfl, hc0, rfl⟩
    | @tail wa wb hab hstep ih =>
      obtain ⟨hinv, hst, hcc, hce, hv⟩ := ih
      obtain ⟨fuel, dt, hs⟩ := hstep
      have hst' := step_dt_statics hinv.good hs
      obtain ⟨f, f', hcs⟩ := step_contacts hinv.good hs
      refine ⟨step_inv hfind hinv hs, hst.trans hst', ?_, hcen _ _ _ _ _ hcs, ?_⟩
      · rw [← hcc]
        exact step_dt_keeps Body.isCircle isCircle_move (fun _ _ => rfl) hinv.good hs
      · obtain ⟨fl, l, pn, a, b, g, hfl, hlaw⟩ := step_law hx hinv hs
        have hlen := sameStatics_length hst
        have hcons := sameStatics_bodyAt hst i
        simp only [Body.consts, Prod.mk.injEq] at hcons
        have hfr : ∀ k, (bodyAt wa.bodies k).fric_coeff = 0 := by
          intro k
          have hk := sameStatics_bodyAt hst k
          simp only [Body.consts, Prod.mk.injEq] at hk
          rw [hk.2.2.2]
          by_cases hkl : k < w0.bodies.length
          · have : bodyAt w0.bodies k = w0.bodies[k] := by simp [bodyAt, List.getD_eq_getElem?_getD, hkl]
            rw [this]
            exact hmu _ (List.getElem_mem hkl)
          · have : bodyAt w0.bodies k = default := by
              simp [bodyAt, List.getD_eq_getElem?_getD, List.getElem?_eq_none (not_lt.1 hkl)]
            rw [this]; rfl
        have := C79_spin_kept _ _ _ _ _ _ _ _ _ _ _ hlaw i (by omega) ?_ ?_ ?_ (by rw [hcons.2.1]; exact hI)
        · rw [this, hv]
          have : (impulse fl dt i).r = 0 := by
            rw [hlen] at hfl
            have := hf _ _ hfl
            unfold impulse
            simp [this, -List.getD_eq_getElem?_getD]
          rw [this]; simp
        · intro j hjm
          have : j.wiring ∈ w0.joints.map Joint.wiring := hst.2 ▸ List.mem_map.2 ⟨j, hjm, rfl⟩
          obtain ⟨j0, hj0, hw⟩ := List.mem_map.1 this
          simp only [Joint.wiring, Prod.mk.injEq] at hw
          rw [← hw.2.1, ← hw.2.2]
          exact hj j0 hj0
        · intro c hc
          have hk : (bodyAt wa.bodies i).isCircle = true := by rw [bodyAt_of_map hcc i]; exact hcirc
          exact ⟨fun e => (hce c hc).1 (e ▸ hk), fun e => (hce c hc).2 (e ▸ hk)⟩
        · intro c hc _
          simp [meanFriction, hfr]
  obtain ⟨hinv, hst, -, -, hv⟩ := key
  have hl := sameStatics_length hst
  have e1 : (bodyAt w.bodies i).v = slice3 w.v i := by
    have := hinv.good.vel i (by omega)
    rw [← this]; simp [bodyAt, List.getD_eq_getElem?_getD, show i < w.bodies.length by omega]
  have e0 : (bodyAt w0.bodies i).v = slice3 w0.v i := by
    have := h0.good.vel i hi
    rw [← this]; simp [bodyAt, List.getD_eq_getElem?_getD, hi]
  rw [e1, e0]
  simp only [slice3]
  rw [mul_comm i 3, hv]

/-- The library's contact search meets the hypothesis of `C79_never_spins`. -/
theorem C79_search_central (fuel : ℕ) (nc : ℕ → List ℕ) (pairs : List Body → List (ℕ × ℕ)) (eps : ℝ) (f f' : Finder)
    (bs : List Body) (cs : List Contact) (h : rejectNan (diffCollide fuel nc pairs) eps f bs = .ok (f', cs)) :
    CentralContacts bs cs := by
  unfold rejectNan at h
  cases hd : diffCollide fuel nc pairs eps f bs with
  | error e => rw [hd] at h; cases h
  | ok r =>
    rw [hd] at h
    simp only at h
    split at h
    · injection h with h
      subst h
      exact fun c hc => C79_circle_contacts_central fuel nc pairs eps f f' bs cs hd c hc
    · cases h

/-! ## Two spinning circles collide -/

theorem step_first {σ : Type} (env : Env σ φ) (fuel : ℕ) (w : World σ φ) (hg : w.Good) (dt : ℝ)
    (hp : w.post_stab = false) (e : σ) (v : Vec) (hs : env.solve_dynamics w dt = .ok (e, v)) (f' : φ)
    (cs : List Contact) (hcol : env.collide w.eps w.fnd
      ((({ w with eng := e } : World σ φ).set_v v).bodies.map fun b => b.move dt) = .ok (f', cs))
    (hpen : ∀ c ∈ cs, c.pen ≤ w.tol) :
    w.step_dt env (fuel + 1) dt = .done
      { ((({ w with eng := e } : World σ φ).set_v v).accepted dt 0 f' cs) with t := w.t + dt } := by
  rw [step_dt_eq env (fuel + 1) w hg dt, hs]
  have hl : specLoop env (({ w with eng := e } : World σ φ).set_v v) (fuel + 1) w.fnd dt 0 =
      .done ((({ w with eng := e } : World σ φ).set_v v).accepted dt 0 f' cs, dt) := by
    unfold specLoop
    have : (({ w with eng := e } : World σ φ).set_v v).eps = w.eps := rfl
    rw [this, hcol]
    simp only
    exact if_pos (Or.inl hpen)
  show Run.bind (Run.done (e, v)) _ = _
  simp only [Run.bind]
  rw [hl]
  have hps : ((({ w with eng := e } : World σ φ).set_v v).accepted dt 0 f' cs).post_stab = false := hp
  simp only [hps, Bool.false_eq_true, if_false]
  rfl

/-- The contact of the two circles. -/
def spinContact : Contact := { normal := (-1, 0), p1 := (1, 0), p2 := (-1, 0), pen := 0, i1 := 0, i2 := 1 }

/-- Two unit circles, touching, approaching and spinning. -/
def spinWorld : World (Option Mat) Unit :=
  { t := 0, dt := 1, eps := 0, tol := 0, post_stab := false, strict_no_pen := true,
    bodies := [{ unitCircle (-1) 1 0 with v := ⟨5, 1, 0⟩ }, { unitCircle 1 1 0 with v := ⟨7, -1, 0⟩ }],
    joints := [], v := cat3 [⟨5, 1, 0⟩, ⟨7, -1, 0⟩], contacts := [spinContact], eng := none, fnd := () }

/-- A contact search that always finds this contact. -/
def spinFinder : ℝ → Unit → List Body → Except Err (Unit × List Contact) :=
  fun _ _ bs => .ok ((), if bs.length = 2 then [spinContact] else [])

theorem spinFinder_ok : FinderOk spinFinder := by
  intro eps f bs f' cs h c hc
  unfold spinFinder at h
  injection h with h
  injection h with h1 h2
  subst h2
  by_cases hl : bs.length = 2
  · rw [if_pos hl] at hc
    simp at hc
    subst hc
    simp [spinContact, hl]
  · rw [if_neg hl] at hc; cases hc

theorem spinWorld_inv : EngineInv spinWorld := by
  refine ⟨⟨?_, ?_, ?_, ?_⟩, ?_, ?_, ?_⟩
  · intro b hb
    simp [spinWorld] at hb
    rcases hb with rfl | rfl <;> simp [Body.RectForm, unitCircle]
  · intro j hj; cases hj
  · intro j hj; cases hj
  · intro i hi
    have : i = 0 ∨ i = 1 := by simp [spinWorld] at hi; omega
    rcases this with rfl | rfl <;> simp [spinWorld, slice3, cat3]
  · intro j hj; cases hj
  · intro c hc
    simp [spinWorld] at hc
    subst hc
    simp [spinContact, spinWorld]
  · intro inv hi; cases hi

theorem spin_central {bs : List Body} {cs : List Contact} (h : ∀ c ∈ cs, c = spinContact) : CentralContacts bs cs := by
  intro c hc
  rw [h c hc]
  simp [spinContact, det]

/-- They do collide, -/
example : ∃ w, StepsTo (pdipmEnv 2 noForces exactLcp 10 spinFinder) spinWorld w := by
  obtain ⟨v', l, pn, a, b, g, h, -⟩ := C74_common_restitution spinWorld spinWorld_inv.joints spinWorld_inv.contacts
    (by
      intro b hb
      simp [spinWorld] at hb
      rcases hb with rfl | rfl <;> simp [unitCircle])
    (by
      intro c hc
      simp [spinWorld] at hc
      subst hc
      simp [spinWorld, spinContact, meanFriction, bodyAt, unitCircle])
    1
    (by
      intro c hc
      simp [spinWorld] at hc
      subst hc
      simp [spinWorld, spinContact, meanRestitution, bodyAt, unitCircle])
    (by simp [spinWorld, jointVels]) (impulse (List.replicate 2 0) 1)
  obtain ⟨-, ⟨e, v⟩, hr⟩ := C74_exact_engine_returns noForces 10 spinWorld 1 spinWorld_inv.joints
    spinWorld_inv.contacts (by simp [spinWorld]) _ (noForces_cat 0 2) _ _ _ _ _ _ h
  exact ⟨_, 1, 1, step_first _ 0 spinWorld spinWorld_inv.good 1 rfl e v hr () [spinContact]
    (by simp [pdipmEnv, spinFinder, World.set_v, spinWorld]) (by simp [spinContact, spinWorld])⟩

/-- and keep their spins. -/
example (w : World (Option Mat) Unit) (h : Reaches (pdipmEnv 2 noForces exactLcp 10 spinFinder) spinWorld w) :
    (bodyAt w.bodies 0).v.r = 5 ∧ (bodyAt w.bodies 1).v.r = 7 := by
  have key := fun i hi hcirc hI => C79_never_spins noForces exactLcp 10 spinFinder spinFinder_ok
    (by
      intro eps f bs f' cs h
      unfold spinFinder at h
      injection h with h
      injection h with h1 h2
      subst h2
      apply spin_central
      intro c hc
      split at hc
      · simpa using hc
      · cases hc)
    exactLcp_exact spinWorld w spinWorld_inv (spin_central (by simp [spinWorld])) h i hi hcirc hI
    (by
      intro b hb
      simp [spinWorld] at hb
      rcases hb with rfl | rfl <;> simp [unitCircle])
    (by intro j hj; cases hj)
    (by
      intro t fl hfl
      rw [noForces_cat] at hfl
      injection hfl with hfl
      subst hfl
      have : i = 0 ∨ i = 1 := by simp [spinWorld] at hi; omega
      rcases this with rfl | rfl <;> simp [spinWorld])
  exact ⟨key 0 (by simp [spinWorld]) (by simp [spinWorld, bodyAt, unitCircle, Body.isCircle])
      (by simp [spinWorld, bodyAt, unitCircle]),
    key 1 (by simp [spinWorld]) (by simp [spinWorld, bodyAt, unitCircle, Body.isCircle])
      (by simp [spinWorld, bodyAt, unitCircle])⟩

end LcpPhysics
