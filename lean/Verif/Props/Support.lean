import Verif.Lemmas.Support

/-! # C10, C11, C13, C18: exclusion, circle-circle contacts, support mapping, clipping -/

noncomputable section

namespace LcpPhysics
open Spec

/-! ## C13 -/

/-- C13: whatever `get_support` returns is a maximiser, the last one among ties, with its index. -/
theorem C13_support_argmax (pts : List V2) (d p : V2) (i : ℕ) (h : get_support pts d = .ok (p, i)) :
    ∃ hi : i < pts.length, p = pts[i] ∧ (∀ x ∈ solid pts, inner x d ≤ inner p d) ∧
      ∀ (k : ℕ) (hk : k < pts.length), i < k → inner pts[k] d < inner p d :=
  get_support_argmax pts d p i h

/-- C13: it raises exactly when every point has a dot product below `-1`. -/
theorem C13_support_raises_iff (pts : List V2) (d : V2) :
    (∃ e, get_support pts d = .error e) ↔ ∀ q ∈ pts, inner q d < -1 :=
  get_support_raises_iff pts d

/-- C13: for a point list whose solid contains the origin (any hull around its centroid) it never
raises. -/
theorem C13_support_total (pts : List V2) (d : V2) (h0 : (0 : V2) ∈ solid pts) :
    ∃ p i, get_support pts d = .ok (p, i) :=
  get_support_total pts d h0

/-- The hypothesis of `C13_support_total` cannot be dropped. -/
theorem C13_support_can_raise : ∃ pts d, pts ≠ [] ∧ ∃ e, get_support pts d = .error e :=
  ⟨[(-2, 0)], (1, 0), by simp, (C13_support_raises_iff _ _).2 (by simp [inner])⟩

example : ∃ p i, get_support [(1, 0), (-1, 1), (-1, -1)] (3, 4) = .ok (p, i) :=
  C13_support_total _ _ (by
    have := solid_combo3 (vs := [((1 : ℝ), (0 : ℝ)), (-1, 1), (-1, -1)]) (mem_solid (by simp))
      (mem_solid (by simp)) (mem_solid (by simp)) (u := 1 / 2) (v := 1 / 4) (w := 1 / 4)
      (a := (1, 0)) (b := (-1, 1)) (c := (-1, -1))
      (by norm_num) (by norm_num) (by norm_num) (by norm_num)
    have e : ((1 / 2 : ℝ) • ((1 : ℝ), (0 : ℝ)) + (1 / 4 : ℝ) • ((-1 : ℝ), (1 : ℝ)) +
      (1 / 4 : ℝ) • ((-1 : ℝ), (-1 : ℝ))) = 0 := by ext <;> simp; norm_num
    rwa [e] at this)

/-! ## C11 -/

/-- C11: two circles give a contact iff the gap between them is at most `eps`. -/
theorem C11_circle_contact_iff (eps r1 r2 : ℝ) (p1 p2 : V2) :
    circleCircle eps r1 r2 p1 p2 ≠ [] ↔ Spec.dist p1 p2 - r1 - r2 ≤ eps := by
  unfold circleCircle
  simp only [nrm_eq_len]
  by_cases h : r1 + r2 - len (p1 - p2) < -eps
  · rw [if_pos h]
    simp only [ne_eq, not_true_eq_false, false_iff, not_le, Spec.dist]
    linarith
  · rw [if_neg h]
    simp only [ne_eq, List.cons_ne_self, not_false_eq_true, true_iff, Spec.dist]
    linarith

/-- C11: at most one contact, whose penetration is the signed overlap; it is NaN exactly for
concentric circles; otherwise the normal is the unit vector from the second centre to the first and
both contact points are the same world point, in the middle of the overlap. -/
theorem C11_circle_contact_exact (eps r1 r2 : ℝ) (p1 p2 : V2) (c : Pt)
    (h : c ∈ circleCircle eps r1 r2 p1 p2) :
    circleCircle eps r1 r2 p1 p2 = [c] ∧ c.pen = r1 + r2 - Spec.dist p1 p2 ∧
    (c.nan = true ↔ p1 = p2) ∧
    (p1 ≠ p2 → len c.normal = 1 ∧ Spec.dist p1 p2 • c.normal = p1 - p2 ∧ p1 + c.p1 = p2 + c.p2 ∧
      p1 + c.p1 = (1 / 2 : ℝ) • ((p1 - r1 • c.normal) + (p2 + r2 • c.normal))) := by
  unfold circleCircle at h ⊢
  simp only [nrm_eq_len] at h ⊢
  by_cases hp : r1 + r2 - len (p1 - p2) < -eps
  · rw [if_pos hp] at h; cases h
  · rw [if_neg hp] at h ⊢
    have hc := List.mem_singleton.1 h
    subst hc
    refine ⟨rfl, rfl, ?_, fun hne => ?_⟩
    · simp only [decide_eq_true_eq]
      rw [len_eq_zero, sub_eq_zero]
    · have hl : len (p1 - p2) ≠ 0 := fun h => hne (sub_eq_zero.1 (len_eq_zero.1 h))
      have hl0 : 0 < len (p1 - p2) := lt_of_le_of_ne (len_nonneg _) (Ne.symm hl)
      refine ⟨?_, ?_, ?_, ?_⟩
      · simp only
        rw [len_smul, abs_of_pos (by positivity)]
        field_simp
      · simp only [Spec.dist]
        rw [smul_smul, mul_one_div_cancel hl, one_smul]
      · simp only
        ext <;> simp only [Prod.fst_add, Prod.snd_add, Prod.smul_fst, Prod.smul_snd, Prod.fst_neg,
          Prod.snd_neg, Prod.fst_sub, Prod.snd_sub, smul_eq_mul] <;> field_simp <;> ring
      · simp only
        ext <;> simp only [Prod.fst_add, Prod.snd_add, Prod.smul_fst, Prod.smul_snd, Prod.fst_neg,
          Prod.snd_neg, Prod.fst_sub, Prod.snd_sub, smul_eq_mul] <;> field_simp <;> ring

/-- C11: presenting the circles in the other order negates the normal and swaps the points. -/
theorem C11_circle_contact_symm (eps r1 r2 : ℝ) (p1 p2 : V2) :
    circleCircle eps r2 r1 p2 p1 =
      (circleCircle eps r1 r2 p1 p2).map fun c =>
        { normal := -c.normal, p1 := c.p2, p2 := c.p1, pen := c.pen, nan := c.nan } := by
  have hd : len (p2 - p1) = len (p1 - p2) := by rw [← len_neg, neg_sub]
  unfold circleCircle
  simp only [nrm_eq_len, hd, add_comm r2 r1]
  by_cases h : r1 + r2 - len (p1 - p2) < -eps
  · rw [if_pos h, if_pos h]; rfl
  · rw [if_neg h, if_neg h]
    simp only [List.map_cons, List.map_nil, List.cons.injEq, and_true, Pt.mk.injEq]
    have e : (1 / len (p1 - p2)) • (p2 - p1) = -((1 / len (p1 - p2)) • (p1 - p2)) := by
      rw [← smul_neg, neg_sub]
    simp only [e, neg_neg, smul_neg, true_and]

example : circleCircle (1 / 10) 1 1 (0, 0) (0, 2) ≠ [] :=
  (C11_circle_contact_iff _ _ _ _ _).2 (by
    have : Spec.dist ((0 : ℝ), (0 : ℝ)) (0, 2) = 2 := by
      simp [Spec.dist, len]
    rw [this]; norm_num)

/-! ## C10 -/

/-- The pairs requested by a sequence of `add_no_contact` calls. -/
def requested (calls : List (ℕ × ℕ)) : ℕ → ℕ → Prop := fun i j => (i, j) ∈ calls ∨ (j, i) ∈ calls

/-- The sets after a sequence of calls. -/
def afterNoContact (calls : List (ℕ × ℕ)) : ℕ → List ℕ :=
  calls.foldl (fun nc c => addNoContact nc c.1 c.2) fun _ => []

theorem addNoContact_mem (nc : ℕ → List ℕ) (a b i j : ℕ) :
    i ∈ addNoContact nc a b j ↔ (i ∈ nc j ∨ (i = a ∧ j = b) ∨ (i = b ∧ j = a)) := by
  unfold addNoContact
  by_cases h1 : j = b
  · by_cases h2 : j = a
    · subst h1; subst h2; simp; tauto
    · subst h1; simp [h2]; tauto
  · by_cases h2 : j = a
    · subst h2; simp [h1]; tauto
    · simp [h1, h2]

/-- C10: after any calls, a geometry is in another's set iff the pair was requested, in either
order; so the relation is symmetric. -/
theorem C10_exactly_requested (calls : List (ℕ × ℕ)) (i j : ℕ) :
    i ∈ afterNoContact calls j ↔ requested calls i j := by
  have key : ∀ (calls : List (ℕ × ℕ)) (nc : ℕ → List ℕ),
      i ∈ calls.foldl (fun nc c => addNoContact nc c.1 c.2) nc j ↔ i ∈ nc j ∨ requested calls i j := by
    intro calls
    induction calls with
    | nil => intro nc; simp [requested]
    | cons c cs ih =>
      intro nc
      obtain ⟨a, b⟩ := c
      rw [List.foldl_cons, ih, addNoContact_mem]
      simp only [requested, List.mem_cons, Prod.mk.injEq]
      tauto
  have := key calls fun _ => []
  simpa [afterNoContact] using this

/-- C10: symmetric. -/
theorem C10_symmetric (calls : List (ℕ × ℕ)) (i j : ℕ) :
    i ∈ afterNoContact calls j ↔ j ∈ afterNoContact calls i := by
  rw [C10_exactly_requested, C10_exactly_requested]
  unfold requested
  tauto

/-- C10: whatever pairs the broad phase presents, in whatever order and orientation, a requested
pair never yields a contact. -/
theorem C10_excluded_never_contacts (fuel : ℕ) (calls : List (ℕ × ℕ)) (eps : ℝ) (bs : List Body)
    (pairs : List (ℕ × ℕ)) (f f' : Finder) (cs : List Contact)
    (h : handleAll fuel (afterNoContact calls) eps bs pairs f = .done (f', cs)) :
    ∀ c ∈ cs, (c.i1, c.i2) ∈ pairs ∧ ¬ requested calls c.i1 c.i2 := by
  induction pairs generalizing f f' cs with
  | nil =>
    injection h with h
    injection h with h1 h2
    subst h2
    intro c hc; cases hc
  | cons p ps ih =>
    simp only [handleAll] at h
    cases hh : handle fuel (afterNoContact calls) eps bs f p.1 p.2 with
    | running => rw [hh] at h; cases h
    | raised e => rw [hh] at h; cases h
    | done r =>
      rw [hh] at h
      simp only [Run.bind] at h
      cases hr : handleAll fuel (afterNoContact calls) eps bs ps r.1 with
      | running => rw [hr] at h; cases h
      | raised e => rw [hr] at h; cases h
      | done s =>
        rw [hr] at h
        injection h with h
        injection h with h1 h2
        subst h2
        intro c hc
        rcases List.mem_append.1 hc with hc | hc
        · unfold handle at hh
          by_cases hx : p.1 ∈ afterNoContact calls p.2
          · rw [if_pos hx] at hh
            injection hh with hh
            rw [← hh] at hc
            cases hc
          · rw [if_neg hx] at hh
            have hidx : c.i1 = p.1 ∧ c.i2 = p.2 := by
              unfold handlePair at hh
              simp only at hh
              split at hh
              · injection hh with hh
                rw [← hh] at hc
                obtain ⟨q, -, rfl⟩ := List.mem_map.1 hc
                exact ⟨rfl, rfl⟩
              · split at hh
                · revert hh
                  generalize circleHull _ _ _ _ _ _ _ _ = R
                  intro hh
                  cases R with
                  | running => cases hh
                  | raised e => cases hh
                  | done r0 =>
                    simp only [Run.bind] at hh
                    injection hh with hh
                    rw [← hh] at hc
                    obtain ⟨q, -, rfl⟩ := List.mem_map.1 hc
                    exact ⟨rfl, rfl⟩
                · revert hh
                  generalize hullHull _ _ _ _ _ _ _ _ = R
                  intro hh
                  cases R with
                  | error e => cases hh
                  | ok r0 =>
                    simp only [Except.map, Run.ofExcept] at hh
                    injection hh with hh
                    rw [← hh] at hc
                    obtain ⟨q, -, rfl⟩ := List.mem_map.1 hc
                    exact ⟨rfl, rfl⟩
            rw [hidx.1, hidx.2]
            exact ⟨List.mem_cons_self .., fun hq => hx ((C10_exactly_requested calls _ _).2 hq)⟩
        · obtain ⟨h3, h4⟩ := ih r.1 s.1 s.2 (by rw [hr]) c hc
          exact ⟨List.mem_cons_of_mem _ h3, h4⟩

example : 2 ∈ afterNoContact [(1, 2), (3, 4)] 1 ∧ 1 ∈ afterNoContact [(1, 2), (3, 4)] 2 ∧
    3 ∉ afterNoContact [(1, 2), (3, 4)] 1 := by
  simp only [C10_exactly_requested, requested]; decide

/-! ## C18 -/

/-- Signed distance to the clip line, positive inside. -/
def lineDist (n : V2) (o : ℝ) (v : V2) : ℝ := inner n v + o

theorem lineDist_combo (n : V2) (o : ℝ) (a b : V2) (t : ℝ) :
    lineDist n o (a + t • (b - a)) = lineDist n o a + t * (lineDist n o b - lineDist n o a) := by
  simp only [lineDist, inner, Prod.fst_add, Prod.snd_add, Prod.smul_fst, Prod.smul_snd, Prod.fst_sub,
    Prod.snd_sub, smul_eq_mul]
  ring

/-- One end inside, the other strictly outside: the intersection point. -/
theorem clip_half (a b n : V2) (o : ℝ) (ha : 0 ≤ lineDist n o a) (hb : lineDist n o b < 0) (x : V2)
    (hx : x = a + (lineDist n o a / (lineDist n o a - lineDist n o b)) • (b - a)) :
    x ∈ segment ℝ a b ∧ lineDist n o x = 0 ∧
      ∀ y ∈ segment ℝ a b, 0 ≤ lineDist n o y → y ∈ segment ℝ a x := by
  set t := lineDist n o a / (lineDist n o a - lineDist n o b) with ht
  have hd : 0 < lineDist n o a - lineDist n o b := by linarith
  have ht0 : 0 ≤ t := div_nonneg ha hd.le
  have ht1 : t ≤ 1 := by rw [ht, div_le_one hd]; linarith
  have htm : t * (lineDist n o a - lineDist n o b) = lineDist n o a := div_mul_cancel₀ _ hd.ne'
  refine ⟨?_, ?_, ?_⟩
  · rw [segment_eq_image']; exact ⟨t, ⟨ht0, ht1⟩, hx.symm⟩
  · rw [hx, lineDist_combo]; linarith
  · intro y hy hy0
    rw [segment_eq_image'] at hy ⊢
    obtain ⟨s, ⟨hs0, hs1⟩, rfl⟩ := hy
    simp only at hy0 ⊢
    rw [lineDist_combo] at hy0
    have hst : s ≤ t := by
      by_contra hc
      have hc := not_le.1 hc
      nlinarith [mul_lt_mul_of_pos_right hc hd]
    rcases ht0.eq_or_lt with h0 | h0
    · have hs : s = 0 := by linarith
      refine ⟨0, ⟨le_refl _, zero_le_one⟩, ?_⟩
      simp [hs]
    · refine ⟨s / t, ⟨by positivity, (div_le_one h0).2 hst⟩, ?_⟩
      simp only
      rw [hx, add_sub_cancel_left, smul_smul, div_mul_cancel₀ _ h0.ne']

/-- C18: if an end is inside, the result consists of two points of the segment, both inside; every
inside end point is kept; and every inside point of the segment lies between the two results. -/
theorem C18_clip_inside (v0 v1 n : V2) (o : ℝ) (h : 0 ≤ lineDist n o v0 ∨ 0 ≤ lineDist n o v1) :
    ∃ a b, clip_segment_to_line v0 v1 n o = [some a, some b] ∧
      (∀ x ∈ [a, b], x ∈ segment ℝ v0 v1 ∧ 0 ≤ lineDist n o x) ∧
      (∀ x ∈ [v0, v1], 0 ≤ lineDist n o x → x ∈ [a, b]) ∧
      ∀ x ∈ segment ℝ v0 v1, 0 ≤ lineDist n o x → x ∈ segment ℝ a b := by
  have e0 : dot n v0 + o = lineDist n o v0 := rfl
  have e1 : dot n v1 + o = lineDist n o v1 := rfl
  by_cases h0 : 0 ≤ lineDist n o v0
  · by_cases h1 : 0 ≤ lineDist n o v1
    · refine ⟨v0, v1, ?_, ?_, fun x hx _ => hx, fun x hx _ => hx⟩
      · unfold clip_segment_to_line
        simp only [e0, e1]
        rw [if_pos h0, if_pos h1, if_neg]
        · rfl
        · have := mul_nonneg h0 h1
          simp
          linarith
      · intro x hx
        rcases List.mem_cons.1 hx with rfl | hx
        · exact ⟨left_mem_segment _ _ _, h0⟩
        · rw [List.mem_singleton.1 hx]
          exact ⟨right_mem_segment _ _ _, h1⟩
    · have h1 := not_le.1 h1
      have hd : lineDist n o v0 - lineDist n o v1 ≠ 0 := by linarith
      obtain ⟨q1, q2, q3⟩ := clip_half v0 v1 n o h0 h1 _ rfl
      refine ⟨v0, _, ?_, ?_, ?_, q3⟩
      · unfold clip_segment_to_line
        simp only [e0, e1]
        rw [if_pos h0, if_neg (not_le.2 h1 : ¬ lineDist n o v1 ≥ 0), if_pos (Or.inr (by simp)), if_neg hd]
        rfl
      · intro x hx
        rcases List.mem_cons.1 hx with rfl | hx
        · exact ⟨left_mem_segment _ _ _, h0⟩
        · rw [List.mem_singleton.1 hx]
          exact ⟨q1, q2.ge⟩
      · intro x hx hx0
        rcases List.mem_cons.1 hx with rfl | hx
        · exact List.mem_cons_self ..
        · rw [List.mem_singleton.1 hx] at hx0; linarith
  · have h1 : 0 ≤ lineDist n o v1 := h.resolve_left h0
    have h0 := not_le.1 h0
    have hd : lineDist n o v0 - lineDist n o v1 ≠ 0 := by linarith
    have hd' : lineDist n o v1 - lineDist n o v0 ≠ 0 := by linarith
    have hx : v0 + (lineDist n o v0 / (lineDist n o v0 - lineDist n o v1)) • (v1 - v0) =
        v1 + (lineDist n o v1 / (lineDist n o v1 - lineDist n o v0)) • (v0 - v1) := by
      have : lineDist n o v1 / (lineDist n o v1 - lineDist n o v0) =
          1 - lineDist n o v0 / (lineDist n o v0 - lineDist n o v1) := by
        field_simp; ring
      rw [this]
      module
    obtain ⟨q1, q2, q3⟩ := clip_half v1 v0 n o h1 h0 _ hx
    rw [segment_symm] at q1
    refine ⟨v1, _, ?_, ?_, ?_, fun y hy => q3 y (by rwa [segment_symm])⟩
    · unfold clip_segment_to_line
      simp only [e0, e1]
      rw [if_neg (not_le.2 h0 : ¬ lineDist n o v0 ≥ 0), if_pos h1, if_pos (Or.inr (by simp)), if_neg hd]
      rfl
    · intro x hx
      rcases List.mem_cons.1 hx with rfl | hx
      · exact ⟨right_mem_segment _ _ _, h1⟩
      · rw [List.mem_singleton.1 hx]
        exact ⟨q1, q2.ge⟩
    · intro x hx hx0
      rcases List.mem_cons.1 hx with rfl | hx
      · linarith
      · rw [List.mem_singleton.1 hx]
        exact List.mem_cons_self ..

/-- C18: with both ends strictly outside, the result is a single point: non-finite if the segment is
parallel to the line, else the intersection of the lines, which is not on the segment. -/
theorem C18_clip_outside (v0 v1 n : V2) (o : ℝ) (h0 : lineDist n o v0 < 0) (h1 : lineDist n o v1 < 0) :
    (lineDist n o v0 = lineDist n o v1 → clip_segment_to_line v0 v1 n o = [none]) ∧
    (lineDist n o v0 ≠ lineDist n o v1 → ∃ x, clip_segment_to_line v0 v1 n o = [some x] ∧
      lineDist n o x = 0 ∧ x ∉ segment ℝ v0 v1 ∧ ∃ t : ℝ, x = v0 + t • (v1 - v0)) := by
  have e0 : dot n v0 + o = lineDist n o v0 := rfl
  have e1 : dot n v1 + o = lineDist n o v1 := rfl
  constructor
  · intro he
    unfold clip_segment_to_line
    simp only [e0, e1]
    rw [if_neg (not_le.2 h0 : ¬ lineDist n o v0 ≥ 0), if_neg (not_le.2 h1 : ¬ lineDist n o v1 ≥ 0), if_pos (Or.inr (by simp)), if_pos (by linarith)]
    rfl
  · intro hne
    refine ⟨v0 + (lineDist n o v0 / (lineDist n o v0 - lineDist n o v1)) • (v1 - v0), ?_, ?_, ?_, _, rfl⟩
    · unfold clip_segment_to_line
      simp only [e0, e1]
      rw [if_neg (not_le.2 h0 : ¬ lineDist n o v0 ≥ 0), if_neg (not_le.2 h1 : ¬ lineDist n o v1 ≥ 0), if_pos (Or.inr (by simp)),
        if_neg (fun h => hne (by linarith))]
      rfl
    · rw [lineDist_combo]
      have hd : lineDist n o v0 - lineDist n o v1 ≠ 0 := fun h => hne (by linarith)
      field_simp
      ring
    · intro hmem
      have hz : lineDist n o (v0 + (lineDist n o v0 / (lineDist n o v0 - lineDist n o v1)) •
          (v1 - v0)) = 0 := by
        rw [lineDist_combo]
        have hd : lineDist n o v0 - lineDist n o v1 ≠ 0 := fun h => hne (by linarith)
        field_simp
        ring
      rw [segment_eq_image'] at hmem
      obtain ⟨s, ⟨hs0, hs1⟩, hs⟩ := hmem
      simp only at hs
      rw [← hs, lineDist_combo] at hz
      have a1 := mul_nonneg (sub_nonneg.2 hs1) (neg_nonneg.2 h0.le)
      have a2 := mul_nonneg hs0 (neg_nonneg.2 h1.le)
      rcases hs0.eq_or_lt with hs | hs
      · rw [← hs] at hz; linarith
      · nlinarith

example : ∃ a b, clip_segment_to_line (0, 0) (2, 0) (1, 0) (-1) = [some a, some b] ∧
    (∀ x ∈ [a, b], x ∈ segment ℝ ((0 : ℝ), (0 : ℝ)) (2, 0) ∧ 0 ≤ lineDist (1, 0) (-1) x) := by
  obtain ⟨a, b, h1, h2, -⟩ := C18_clip_inside (0, 0) (2, 0) (1, 0) (-1)
    (Or.inr (by simp [lineDist, inner]))
  exact ⟨a, b, h1, h2⟩

end LcpPhysics
