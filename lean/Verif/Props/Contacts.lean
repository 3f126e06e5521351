import Verif.Props.Deep
import Verif.Props.History

/-! # C12: every reported contact is well-formed -/

noncomputable section

namespace LcpPhysics
open Spec

/-- A contact point between bodies at `pos1`, `pos2` as the engine expects it. -/
structure PtOk (eps : ℝ) (pos1 pos2 : V2) (p : Pt) : Prop where
  pen : -eps ≤ p.pen
  unit : p.nan = false → len p.normal = 1
  meet : pos1 + p.p1 = pos2 + p.p2

theorem circleCircle_ok (eps r1 r2 : ℝ) (pos1 pos2 : V2) :
    ∀ p ∈ circleCircle eps r1 r2 pos1 pos2, PtOk eps pos1 pos2 p := by
  intro p hp
  unfold circleCircle at hp
  simp only at hp
  by_cases h : r1 + r2 - nrm (pos1 - pos2) < -eps
  · rw [if_pos h] at hp; simp at hp
  rw [if_neg h, List.mem_singleton] at hp
  subst hp
  set d := nrm (pos1 - pos2) with hd
  refine ⟨not_lt.1 h, fun hn => ?_, ?_⟩
  · simp only [decide_eq_false_iff_not] at hn
    simp only
    have h0 : 0 < d := lt_of_le_of_ne (by rw [hd, nrm_eq_len]; exact len_nonneg _) (Ne.symm hn)
    rw [len_smul, ← nrm_eq_len, ← hd, abs_of_pos (by positivity)]
    exact one_div_mul_cancel hn
  · simp only
    by_cases hn : d = 0
    · have : pos1 = pos2 := sub_eq_zero.1 (len_eq_zero.1 (by rw [← nrm_eq_len, ← hd, hn]))
      subst this
      simp
    · have e : pos1 - pos2 = d • ((1 / d) • (pos1 - pos2)) := by
        rw [smul_smul, mul_one_div_cancel hn, one_smul]
      have e' : pos1 = pos2 + d • ((1 / d) • (pos1 - pos2)) := by rw [← e]; abel
      set n := (1 / d) • (pos1 - pos2)
      rw [e']
      module

theorem circleHull_ok {fuel : ℕ} {eps rad : ℝ} {pos1 pos2 : V2} {verts : List V2} {seed last : ℕ}
    {r : Option CHull × ℕ} (h : circleHull fuel eps rad pos1 pos2 verts seed last = .done r) (k : CHull)
    (hk : r.1 = some k) : k.dist ≤ eps ∧ (k.nan = false → len k.normal = 1) ∧ pos1 + k.pt1 = pos2 + k.pt2 := by
  unfold circleHull at h
  cases hg : gjkLoop verts (pos1 - pos2) fuel [seed % verts.length] with
  | running => rw [hg] at h; cases h
  | raised e => rw [hg] at h; cases h
  | done g =>
    obtain ⟨q, used⟩ := g
    rw [hg] at h
    simp only [Run.bind] at h
    by_cases hl : used.length < 3
    · rw [if_pos hl] at h
      injection h with h
      rw [← h] at hk
      unfold shallowContact at hk
      simp only at hk
      by_cases hc : nrm (q + pos2 - pos1) - rad > eps
      · rw [if_pos hc] at hk; cases hk
      rw [if_neg hc] at hk
      injection hk with hk
      subst hk
      refine ⟨not_lt.1 hc, fun hn => ?_, by simp only; abel⟩
      simp only [decide_eq_false_iff_not] at hn
      simp only
      have h0 : 0 < nrm (q + pos2 - pos1) :=
        lt_of_le_of_ne (by rw [nrm_eq_len]; exact len_nonneg _) (Ne.symm hn)
      rw [len_smul, len_neg, ← nrm_eq_len, abs_of_pos (by positivity)]
      exact one_div_mul_cancel hn
    · rw [if_neg hl] at h
      have inv := satCircle_inv eps rad verts pos1 pos2 last
      cases hs : satCircle eps rad pos1 pos2 verts last with
      | gap i =>
        rw [hs] at h; injection h with h; rw [← h] at hk; cases hk
      | go best bd l =>
        rw [hs] at h inv
        cases best with
        | none => cases h
        | some k' =>
          injection h with h
          rw [← h] at hk
          injection hk with hk
          subst hk
          obtain ⟨-, hgood, -⟩ := inv
          exact ⟨hgood.le, fun _ => by rw [hgood.normal]; exact len_edgeNormal hgood.edge_ne, hgood.pt1⟩

theorem emitPts_ok {eps : ℝ} {n rv rp ip : V2} {first : Bool} (hn : len n = 1) :
    ∀ {vs : List (Option V2)} {pts : List Pt}, emitPts eps n rv rp ip first vs = .ok pts →
      ∀ p ∈ pts, PtOk eps (if first then rp else ip) (if first then ip else rp) p ∧ p.nan = false
  | [], pts, h => by simp only [emitPts] at h; injection h with h; subst h; simp
  | none :: vs, pts, h => by simp [emitPts] at h
  | some v :: vs, pts, h => by
    unfold emitPts at h
    cases hr : emitPts eps n rv rp ip first vs with
    | error e => rw [hr] at h; cases h
    | ok rest =>
      rw [hr] at h
      simp only at h
      have ih := emitPts_ok hn hr
      by_cases hd : dot n (v - rv) ≤ eps
      · rw [if_pos hd] at h
        injection h with h
        subst h
        intro p hp
        rcases List.mem_cons.1 hp with rfl | hp
        · cases first
          · exact ⟨⟨by simpa using hd, fun _ => by simpa using hn, by simp; abel⟩, rfl⟩
          · exact ⟨⟨by simpa using hd, fun _ => by simpa [len_neg] using hn, by simp; abel⟩, rfl⟩
        · exact ih p hp
      · rw [if_neg hd] at h
        injection h with h
        subst h
        exact ih

theorem manifold_ok {eps : ℝ} {rp ip : V2} {rv iv : List V2} {nn : V2} {vx : ℕ} {en : ℝ} {ed : ℕ}
    {first : Bool} (hn : len nn = 1) {pts : List Pt}
    (h : manifold eps rp ip rv iv nn vx en ed first = .ok pts) :
    ∀ p ∈ pts, PtOk eps (if first then rp else ip) (if first then ip else rp) p ∧ p.nan = false := by
  unfold manifold at h
  simp only at h
  split at h
  · exact emitPts_ok (by rw [len_neg]; exact hn) h
  · injection h with h; subst h; simp
  · injection h with h; subst h; simp
  · cases h

theorem sep_unit {eps : ℝ} {P Q : List V2} {pos1 pos2 : V2} {start : ℕ} {d : ℝ} {pt1 pt2 nn : V2} {vx : ℕ}
    {en : ℝ} {e : ℕ} (h : test_separations eps pos1 pos2 P Q start = .ok (.best d pt1 pt2 nn vx en e)) :
    len nn = 1 := by
  rcases test_sep_spec h with ⟨_, _, he, _⟩ | ⟨_, _, _, _, _, _, _, he, _, hg, _⟩
  · cases he
  · injection he with e1 e2 e3 e4 e5 e6 e7
    subst e1 e2 e3 e4 e5 e6 e7
    rw [hg.nn_eq, len_neg]
    exact len_edgeNormal hg.edge_ne

theorem hullHull_ok {eps : ℝ} {pos1 pos2 : V2} {P Q : List V2} {i1 i2 : ℕ} {f f' : Finder} {pts : List Pt}
    (h : hullHull eps pos1 pos2 P Q i1 i2 f = .ok (f', pts)) :
    ∀ p ∈ pts, PtOk eps pos1 pos2 p ∧ p.nan = false := by
  unfold hullHull at h
  cases h1 : test_separations eps pos1 pos2 P Q (f.sat i1) with
  | error e => rw [h1] at h; cases h
  | ok c1 =>
    rw [h1] at h
    simp only at h
    by_cases g1 : c1.dist > eps
    · rw [if_pos g1] at h
      injection h with h; injection h with _ h; subst h; simp
    rw [if_neg g1] at h
    cases h2 : test_separations eps pos2 pos1 Q P ((f.setSat i1 c1.edge).sat i2) with
    | error e => rw [h2] at h; cases h
    | ok c2 =>
      rw [h2] at h
      simp only at h
      by_cases g2 : c2.dist > eps
      · rw [if_pos g2] at h
        injection h with h; injection h with _ h; subst h; simp
      rw [if_neg g2] at h
      by_cases g3 : c2.dist > c1.dist
      · rw [if_pos g3] at h
        cases c2 with
        | gap d i => cases h
        | best d pt1 pt2 nn vx en ed =>
          simp only at h
          cases hm : manifold eps pos2 pos1 Q P nn vx en ed false with
          | error e => rw [hm] at h; cases h
          | ok pts' =>
            rw [hm] at h
            injection h with h; injection h with _ h; subst h
            simpa using manifold_ok (sep_unit h2) hm
      · rw [if_neg g3] at h
        cases c1 with
        | gap d i => cases h
        | best d pt1 pt2 nn vx en ed =>
          simp only at h
          cases hm : manifold eps pos1 pos2 P Q nn vx en ed true with
          | error e => rw [hm] at h; cases h
          | ok pts' =>
            rw [hm] at h
            injection h with h; injection h with _ h; subst h
            simpa using manifold_ok (sep_unit h1) hm

/-- C12 for one pair of bodies: the bodies named, penetration at least `-eps`, the two offsets name
the same point of the world, and a unit normal unless the normal is NaN, which can only happen
when a circle takes part. -/
theorem C12_pair_wellformed (fuel : ℕ) (eps : ℝ) (bs : List Body) (f f' : Finder) (i1 i2 : ℕ)
    (cs : List Contact) (h : handlePair fuel eps bs f i1 i2 = .done (f', cs)) (c : Contact) (hc : c ∈ cs) :
    c.i1 = i1 ∧ c.i2 = i2 ∧ -eps ≤ c.pen ∧ (c.nan = false → len c.normal = 1) ∧
      (bodyAt bs i1).pos + c.p1 = (bodyAt bs i2).pos + c.p2 ∧
      (c.nan = true → (bodyAt bs i1).isCircle = true ∨ (bodyAt bs i2).isCircle = true) := by
  unfold handlePair at h
  simp only at h
  by_cases h1 : (bodyAt bs i1).isCircle = true ∧ (bodyAt bs i2).isCircle = true
  · rw [if_pos h1] at h
    injection h with h
    injection h with _ h
    subst h
    obtain ⟨p, hp, rfl⟩ := List.mem_map.1 hc
    obtain ⟨a, b, d⟩ := circleCircle_ok _ _ _ _ _ p hp
    exact ⟨rfl, rfl, a, b, d, fun _ => Or.inl h1.1⟩
  rw [if_neg h1] at h
  by_cases h2 : (bodyAt bs i1).isCircle = true ∨ (bodyAt bs i2).isCircle = true
  · rw [if_pos h2] at h
    generalize hr : circleHull fuel eps _ _ _ _ _ _ = r at h
    cases r with
    | running => cases h
    | raised e => cases h
    | done r =>
      simp only [Run.bind] at h
      injection h with h
      injection h with _ h
      subst h
      obtain ⟨p, hp, rfl⟩ := List.mem_map.1 hc
      obtain ⟨k, hk, rfl⟩ := List.mem_map.1 hp
      have hk' : r.1 = some k := Option.mem_toList.1 hk
      obtain ⟨a, b, d⟩ := circleHull_ok hr k hk'
      cases hb2 : (bodyAt bs i2).isCircle with
      | true =>
        simp only [hb2, if_true, CHull.toPt] at d ⊢
        exact ⟨trivial, trivial, by linarith, fun hn => by rw [len_neg]; exact b hn, d.symm, fun _ => by simp⟩
      | false =>
        simp only [hb2, Bool.false_eq_true, if_false, CHull.toPt] at d ⊢
        refine ⟨trivial, trivial, by linarith, b, d, fun _ => ?_⟩
        simpa [hb2] using h2
  · rw [if_neg h2] at h
    cases hr : hullHull eps (bodyAt bs i1).pos (bodyAt bs i2).pos (bodyAt bs i1).verts
        (bodyAt bs i2).verts i1 i2 f with
    | error e => rw [hr] at h; cases h
    | ok r =>
      obtain ⟨f1, pts⟩ := r
      rw [hr] at h
      simp only [Except.map, Run.ofExcept] at h
      injection h with h
      injection h with _ h
      subst h
      obtain ⟨p, hp, rfl⟩ := List.mem_map.1 hc
      obtain ⟨⟨a, b, d⟩, hn⟩ := hullHull_ok hr p hp
      exact ⟨rfl, rfl, a, b, d, fun hn' => by simp only at hn'; rw [hn] at hn'; cases hn'⟩

theorem handleAll_mem {fuel : ℕ} {nc : ℕ → List ℕ} {eps : ℝ} {bs : List Body} :
    ∀ {ps : List (ℕ × ℕ)} {f f' : Finder} {cs : List Contact},
      handleAll fuel nc eps bs ps f = .done (f', cs) → ∀ c ∈ cs, ∃ p ∈ ps, ∃ g g' cs',
        p.1 ∉ nc p.2 ∧ handlePair fuel eps bs g p.1 p.2 = .done (g', cs') ∧ c ∈ cs'
  | [], f, f', cs, h, c, hc => by
    simp only [handleAll] at h; injection h with h; injection h with _ h; subst h; simp at hc
  | p :: ps, f, f', cs, h, c, hc => by
    unfold handleAll at h
    cases hp : handle fuel nc eps bs f p.1 p.2 with
    | running => rw [hp] at h; cases h
    | raised e => rw [hp] at h; cases h
    | done r =>
      rw [hp] at h
      simp only [Run.bind] at h
      cases hs : handleAll fuel nc eps bs ps r.1 with
      | running => rw [hs] at h; cases h
      | raised e => rw [hs] at h; cases h
      | done s =>
        rw [hs] at h
        simp only at h
        injection h with h
        injection h with _ h
        subst h
        rcases List.mem_append.1 hc with hc | hc
        · unfold handle at hp
          by_cases hx : p.1 ∈ nc p.2
          · rw [if_pos hx] at hp
            injection hp with hp
            rw [← hp] at hc; simp at hc
          · rw [if_neg hx] at hp
            exact ⟨p, by simp, f, r.1, r.2, hx, hp, hc⟩
        · obtain ⟨p', hp', rest⟩ := handleAll_mem hs c hc
          exact ⟨p', List.mem_cons_of_mem _ hp', rest⟩

/-- C12: every contact of a whole contact search is between a pair presented by the broad phase and
not excluded, has penetration at least `-eps`, offsets that name one point of the world, and a unit
normal unless flagged NaN; NaN never occurs between two hulls. -/
theorem C12_contacts_wellformed (fuel : ℕ) (nc : ℕ → List ℕ) (pairs : List Body → List (ℕ × ℕ)) (eps : ℝ)
    (f f' : Finder) (bs : List Body) (cs : List Contact)
    (h : diffCollide fuel nc pairs eps f bs = .ok (f', cs)) (c : Contact) (hc : c ∈ cs) :
    (c.i1, c.i2) ∈ pairs bs ∧ c.i1 ∉ nc c.i2 ∧ -eps ≤ c.pen ∧ (c.nan = false → len c.normal = 1) ∧
      (bodyAt bs c.i1).pos + c.p1 = (bodyAt bs c.i2).pos + c.p2 ∧
      (c.nan = true → (bodyAt bs c.i1).isCircle = true ∨ (bodyAt bs c.i2).isCircle = true) := by
  unfold diffCollide at h
  cases hr : handleAll fuel nc eps bs (pairs bs) f with
  | running => rw [hr] at h; cases h
  | raised e => rw [hr] at h; cases h
  | done r =>
    rw [hr] at h
    simp only [Run.toExcept] at h
    injection h with h
    subst h
    obtain ⟨p, hp, g, g', cs', hx, hpair, hc'⟩ := handleAll_mem hr c hc
    obtain ⟨a, b, rest⟩ := C12_pair_wellformed fuel eps bs g g' p.1 p.2 cs' hpair c hc'
    rw [a, b]
    exact ⟨hp, hx, rest⟩

/-- A contact search that stops when a normal is NaN. -/
def rejectNan (collide : ℝ → Finder → List Body → Except Err (Finder × List Contact)) (eps : ℝ)
    (f : Finder) (bs : List Body) : Except Err (Finder × List Contact) :=
  match collide eps f bs with
  | .error e => .error e
  | .ok r => if r.2.all (fun c => !c.nan) then .ok r else .error (.raised "nonfinite")

/-- C12: with a broad phase that presents pairs of distinct bodies, the contact search (up to NaN
normals) is what the engine theorems assume of a contact finder. -/
theorem C12_finder_ok (fuel : ℕ) (nc : ℕ → List ℕ) (pairs : List Body → List (ℕ × ℕ))
    (hp : ∀ bs, ∀ p ∈ pairs bs, p.1 < bs.length ∧ p.2 < bs.length ∧ p.1 ≠ p.2) :
    FinderOk (rejectNan (diffCollide fuel nc pairs)) := by
  intro eps f bs f' cs h c hc
  unfold rejectNan at h
  cases hd : diffCollide fuel nc pairs eps f bs with
  | error e => rw [hd] at h; cases h
  | ok r =>
    rw [hd] at h
    simp only at h
    by_cases ha : r.2.all (fun c => !c.nan) = true
    · rw [if_pos ha] at h
      injection h with h
      subst h
      obtain ⟨h1, -⟩ := C12_contacts_wellformed fuel nc pairs eps f f' bs cs hd c hc
      have := hp bs _ h1
      have hn := List.all_eq_true.1 ha c hc
      exact ⟨this.1, this.2.1, this.2.2, by simpa using hn⟩
    · rw [if_neg ha] at h; cases h

/-- C12: without circles nothing is rejected. -/
theorem C12_hulls_never_nan (fuel : ℕ) (nc : ℕ → List ℕ) (pairs : List Body → List (ℕ × ℕ)) (eps : ℝ)
    (f : Finder) (bs : List Body) (hp : ∀ p ∈ pairs bs, p.1 < bs.length ∧ p.2 < bs.length)
    (hb : ∀ b ∈ bs, b.isCircle = false) :
    rejectNan (diffCollide fuel nc pairs) eps f bs = diffCollide fuel nc pairs eps f bs := by
  unfold rejectNan
  cases hd : diffCollide fuel nc pairs eps f bs with
  | error e => rfl
  | ok r =>
    simp only
    rw [if_pos]
    rw [List.all_eq_true]
    intro c hc
    obtain ⟨hpr, -, -, -, -, h⟩ := C12_contacts_wellformed fuel nc pairs eps f r.1 bs r.2 hd c hc
    obtain ⟨l1, l2⟩ := hp _ hpr
    have hb' : ∀ i < bs.length, (bodyAt bs i).isCircle = false := by
      intro i hi
      rw [bodyAt, List.getD_eq_getElem?_getD, List.getElem?_eq_getElem hi]
      exact hb _ (List.getElem_mem hi)
    cases hn : c.nan with
    | false => rfl
    | true =>
      rcases h hn with h | h
      · rw [hb' _ l1] at h; cases h
      · rw [hb' _ l2] at h; cases h

/-- Non-vacuity: a world with one square. -/
example (fuel : ℕ) (nc : ℕ → List ℕ) (f : Finder) : ∃ b, mkRect (.two 0) (1, 1) {} = .ok b ∧
    rejectNan (diffCollide fuel nc fun _ => [(0, 0)]) (1 / 10) f [b] =
      diffCollide fuel nc (fun _ => [(0, 0)]) (1 / 10) f [b] := by
  have h : mkRect (.two 0) (1, 1) {} = .ok (rectBase (.two 0) (1, 1) {}) := by
    rw [mkRect_eq _ _ _ (by norm_num)]
  exact ⟨_, h, C12_hulls_never_nan _ _ _ _ _ _ (by simp) (by simp [rectBase, Body.isCircle])⟩

/-- Non-vacuity: two overlapping unit circles have a contact, and it is well-formed. -/
example : ∃ p ∈ circleCircle (1 / 10) 1 1 (0, 0) (1, 0), PtOk (1 / 10) (0, 0) (1, 0) p := by
  have hl : nrm (((0 : ℝ), (0 : ℝ)) - (1, 0)) = 1 := by rw [nrm_eq_len]; norm_num [len]
  have : circleCircle (1 / 10) 1 1 (0, 0) (1, 0) ≠ [] := by
    unfold circleCircle
    simp only [hl]
    rw [if_neg (by norm_num)]
    simp
  obtain ⟨p, hp⟩ := List.exists_mem_of_ne_nil _ this
  exact ⟨p, hp, circleCircle_ok _ _ _ _ _ p hp⟩

/-- Example for `C12_finder_ok`: a broad phase that presents every two neighbours. -/
example (fuel : ℕ) (nc : ℕ → List ℕ) : FinderOk (rejectNan (diffCollide fuel nc fun bs =>
    (List.range (bs.length - 1)).map fun i => (i, i + 1))) :=
  C12_finder_ok fuel nc _ (by
    intro bs p hp
    simp only [List.mem_map, List.mem_range] at hp
    obtain ⟨i, hi, rfl⟩ := hp
    refine ⟨?_, ?_, ?_⟩ <;> simp only <;> omega)

end LcpPhysics
