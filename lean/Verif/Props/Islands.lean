import Verif.Props.Solvable
import Verif.Spec.Islands

/-!
# C78: what happens elsewhere does not matter

Consequences of the contact law for a group of bodies that touch only each other and resting bodies.
-/

noncomputable section

namespace LcpPhysics
open Spec

variable (S : ℕ → Prop) [DecidablePred S]

theorem twist_onlyOn (v : Vec) (i : ℕ) : twist (onlyOn S v) i = if S i then twist v i else 0 := by
  have b1 : 3 * i / 3 = i := by omega
  have b2 : (3 * i + 1) / 3 = i := by omega
  have b3 : (3 * i + 2) / 3 = i := by omega
  by_cases h : S i
  · simp [twist, onlyOn, b1, b2, b3, h]
  · simp [twist, onlyOn, b1, b2, b3, h]; rfl

theorem pointVel_zero (off : V2) : pointVel 0 off = 0 := by
  simp [pointVel]

theorem twist_lin (s t : ℝ) (v w : Vec) (i : ℕ) : twist (fun k => s * v k + t * w k) i =
    ⟨s * (twist v i).r + t * (twist w i).r, s * (twist v i).x + t * (twist w i).x,
      s * (twist v i).y + t * (twist w i).y⟩ := rfl

theorem twist_ext {v w : Vec} {i : ℕ} (h : twist v i = twist w i) :
    v (3 * i) = w (3 * i) ∧ v (3 * i + 1) = w (3 * i + 1) ∧ v (3 * i + 2) = w (3 * i + 2) := by
  simp only [twist, V3.mk.injEq] at h
  exact h

/-- Contact velocities only read the two bodies. -/
theorem contactVel_congr {c : Contact} {v w : Vec} (h1 : twist v c.i1 = twist w c.i1)
    (h2 : twist v c.i2 = twist w c.i2) : contactVel c v = contactVel c w := by
  simp only [contactVel, h1, h2]

theorem jointVel_congr {j : Joint} {v w : Vec} (h1 : twist v j.i1 = twist w j.i1)
    (h2 : ∀ k ∈ j.i2, twist v k = twist w k) : jointVel j v = jointVel j w := by
  obtain ⟨kind, i1, i2, pos, pos1, pos2, r1, rot1, rot2⟩ := j
  cases i2 with
  | none => simp only at h1; simp only [jointVel, h1]
  | some k => simp only at h1; simp only [jointVel, h1, h2 k rfl]

variable {S} {js : List Joint} {cs : List Contact} {v v' : Vec}

/-- Contacts of the island do not notice that other bodies are stopped. -/
theorem contactVel_cut {c : Contact} (ht : touches S c = true) (x : Vec)
    (h1 : S c.i1 → S c.i2 ∨ twist x c.i2 = 0) (h2 : S c.i2 → S c.i1 ∨ twist x c.i1 = 0) :
    contactVel c (onlyOn S x) = contactVel c x := by
  have ht : S c.i1 ∨ S c.i2 := by simpa [touches] using ht
  apply contactVel_congr
  · rw [twist_onlyOn]
    split
    · rfl
    · rename_i hn
      rcases h2 (ht.resolve_left hn) with h | h
      · exact absurd h hn
      · rw [h]
  · rw [twist_onlyOn]
    split
    · rfl
    · rename_i hn
      rcases h1 (ht.resolve_right hn) with h | h
      · exact absurd h hn
      · rw [h]

theorem rests_lin {v v' : Vec} {m : ℕ} (hm : Rests v v' m) (s t : ℝ) :
    twist (fun k => s * v k + t * v' k) m = 0 := by
  rw [twist_lin, hm.1, hm.2]
  apply V3.ext <;> simp

theorem island_contactVel (h : Island S js cs v v') {c : Contact} (hc : c ∈ cs) (ht : touches S c = true)
    (s t : ℝ) :
    contactVel c (onlyOn S fun k => s * v k + t * v' k) = contactVel c (fun k => s * v k + t * v' k) := by
  have hi := h.contacts c hc
  exact contactVel_cut ht _ (fun q => (hi.1 q).imp id fun r => rests_lin r s t)
    (fun q => (hi.2 q).imp id fun r => rests_lin r s t)

theorem contactVel_out {c : Contact} (ht : ¬ touches S c = true) (w : Vec) : contactVel c (onlyOn S w) = 0 := by
  have ht : ¬ S c.i1 ∧ ¬ S c.i2 := by simpa [touches] using ht
  unfold contactVel
  rw [twist_onlyOn, twist_onlyOn, if_neg ht.1, if_neg ht.2, pointVel_zero, pointVel_zero, sub_zero]

theorem jointVel_cut {j : Joint} (ht : holds S j = true) (x : Vec)
    (hi : ∀ k ∈ j.i2, (S j.i1 → S k ∨ twist x k = 0) ∧ (S k → S j.i1 ∨ twist x j.i1 = 0)) :
    jointVel j (onlyOn S x) = jointVel j x := by
  have ht : S j.i1 ∨ ∃ k ∈ j.i2, S k := by simpa [holds] using ht
  apply jointVel_congr
  · rw [twist_onlyOn]
    split
    · rfl
    · rename_i hn
      obtain ⟨k, hk, hSk⟩ := ht.resolve_left hn
      rcases (hi k hk).2 hSk with h | h
      · exact absurd h hn
      · rw [h]
  · intro k hk
    rw [twist_onlyOn]
    split
    · rfl
    · rename_i hn
      have hS1 : S j.i1 := by
        rcases ht with h | ⟨k', hk', h⟩
        · exact h
        · rw [Option.mem_def] at hk hk'
          rw [hk] at hk'
          obtain rfl := Option.some.inj hk'
          exact absurd h hn
      rcases (hi k hk).1 hS1 with h | h
      · exact absurd h hn
      · rw [h]

theorem island_jointVel (h : Island S js cs v v') {j : Joint} (hj : j ∈ js) (ht : holds S j = true) (s t : ℝ) :
    jointVel j (onlyOn S fun k => s * v k + t * v' k) = jointVel j (fun k => s * v k + t * v' k) :=
  jointVel_cut ht _ fun k hk =>
    ⟨fun q => ((h.joints j hj k hk).1 q).imp id fun r => rests_lin r s t,
      fun q => ((h.joints j hj k hk).2 q).imp id fun r => rests_lin r s t⟩

theorem jointVel_out {j : Joint} (ht : ¬ holds S j = true) (w : Vec) : ∀ x ∈ jointVel j (onlyOn S w), x = 0 := by
  have ht : ¬ S j.i1 ∧ ∀ k ∈ j.i2, ¬ S k := by simpa [holds] using ht
  have e : jointVel j (onlyOn S w) = jointVel j (fun _ => 0) := by
    apply jointVel_congr
    · rw [twist_onlyOn, if_neg ht.1]; rfl
    · intro k hk
      rw [twist_onlyOn, if_neg (ht.2 k hk)]; rfl
  rw [e]
  obtain ⟨kind, i1, i2, pos, pos1, pos2, r1, rot1, rot2⟩ := j
  cases kind <;> cases i2 <;> simp [jointVel, twist, pointVel]

theorem contactVel_lin (c : Contact) (s t : ℝ) (v w : Vec) :
    normalVel c (fun k => s * v k + t * w k) = s * normalVel c v + t * normalVel c w ∧
    slipVel c (fun k => s * v k + t * w k) = s * slipVel c v + t * slipVel c w := by
  constructor <;> simp only [normalVel, slipVel, contactVel, pointVel, twist, Spec.inner, tangent, Prod.fst_sub,
    Prod.snd_sub] <;> ring

theorem jointVel_lin_zero (j : Joint) (s t : ℝ) (v w : Vec) (hv : ∀ x ∈ jointVel j v, x = 0)
    (hw : ∀ x ∈ jointVel j w, x = 0) : ∀ x ∈ jointVel j (fun k => s * v k + t * w k), x = 0 := by
  obtain ⟨kind, i1, i2, pos, pos1, pos2, r1, rot1, rot2⟩ := j
  intro x hx
  cases kind <;> cases i2 <;>
    simp [jointVel, twist, pointVel] at hv hw hx ⊢ <;>
    first
    | (rcases hx with rfl | rfl | rfl <;>
        first
        | linear_combination s * hv.1 + t * hw.1
        | linear_combination s * hv.2.1 + t * hw.2.1
        | linear_combination s * hv.2.2 + t * hw.2.2)
    | (rcases hx with rfl | rfl <;>
        first
        | linear_combination s * hv.1 + t * hw.1
        | linear_combination s * hv.2 + t * hw.2)
    | (rw [hx]; linear_combination s * hv + t * hw)

theorem momentumPower_onlyOn (bs : List Body) (u w : Vec) :
    momentumPower bs (onlyOn S u) w = ∑ i ∈ (Finset.range bs.length).filter S,
      ((bodyAt bs i).ang_inertia * (twist w i).r * (twist u i).r +
       (bodyAt bs i).mass * ((twist w i).x * (twist u i).x + (twist w i).y * (twist u i).y)) := by
  unfold momentumPower
  rw [Finset.sum_filter]
  refine Finset.sum_congr rfl fun i _ => ?_
  rw [twist_onlyOn]
  split <;> simp

theorem forcePower_onlyOn (n : ℕ) (f : ℕ → V3) (u : Vec) :
    forcePower n f (onlyOn S u) = ∑ i ∈ (Finset.range n).filter S,
      ((f i).r * (twist u i).r + (f i).x * (twist u i).x + (f i).y * (twist u i).y) := by
  unfold forcePower
  rw [Finset.sum_filter]
  refine Finset.sum_congr rfl fun i _ => ?_
  rw [twist_onlyOn]
  split <;> simp

/-- C78: the kinetic energy of an island changes as if it were alone: with a common restitution coefficient on its
contacts, no friction there and no forces, it loses exactly the share `(1 - e) / (1 + e)` of the energy of its velocity
change.  For `e = 1` it is conserved, whatever happens to other bodies. -/
theorem C78_island_energy (S : ℕ → Prop) [DecidablePred S] (bs : List Body) (js : List Joint) (cs : List Contact)
    (f : ℕ → V3) (v v' l : Vec) (pn a b g : ℕ → ℝ) (e : ℝ) (h : ContactLaw bs js cs f v v' l pn a b g)
    (hS : Island S js cs v v') (hf : ∀ i, S i → f i = 0)
    (hmu : ∀ c ∈ cs, touches S c = true → meanFriction bs c = 0)
    (he : ∀ c ∈ cs, touches S c = true → meanRestitution bs c = e)
    (hjv : ∀ j ∈ js, holds S j = true → ∀ x ∈ jointVel j v, x = 0) :
    (1 + e) * (energyOf S bs v' - energyOf S bs v) = -((1 - e) * energyOf S bs (v' - v)) := by
  have hd := h.dynamics (onlyOn S fun k => e * v k + 1 * v' k)
  have hj : jointPower js l (onlyOn S fun k => e * v k + 1 * v' k) = 0 := by
    apply jointPower_zero
    intro x hx
    obtain ⟨j, hjm, hx⟩ := List.mem_flatMap.1 hx
    by_cases ht : holds S j = true
    · rw [island_jointVel hS hjm ht] at hx
      exact jointVel_lin_zero j e 1 v v' (hjv j hjm ht)
        (fun y hy => h.joints y (List.mem_flatMap.2 ⟨j, hjm, hy⟩)) x hx
    · exact jointVel_out ht _ x hx
  have hc : contactPower cs pn (fun i => a i - b i) (onlyOn S fun k => e * v k + 1 * v' k) = 0 := by
    unfold contactPower
    refine Finset.sum_eq_zero fun i hi => ?_
    have hi := Finset.mem_range.1 hi
    rw [List.getElem?_eq_getElem hi]
    simp only
    by_cases ht : touches S cs[i] = true
    · have hm := List.getElem_mem hi
      have e1 := island_contactVel hS hm ht e 1
      obtain ⟨-, r2⟩ := h.restitution i hi
      obtain ⟨c1, -⟩ := h.cone i hi
      obtain ⟨-, n2, n3, -⟩ := h.nonneg i hi
      rw [hmu _ hm ht] at c1
      have a0 : a i = 0 := by linarith
      have b0 : b i = 0 := by linarith
      rw [he _ hm ht] at r2
      have e2 : normalVel cs[i] (onlyOn S fun k => e * v k + 1 * v' k) =
          e * normalVel cs[i] v + 1 * normalVel cs[i] v' := by
        rw [← (contactVel_lin cs[i] e 1 v v').1]
        simp only [normalVel, e1]
      rw [e2, a0, b0]
      linear_combination r2
    · simp [normalVel, slipVel, contactVel_out ht, Spec.inner]
  have hfz : forcePower bs.length f (onlyOn S fun k => e * v k + 1 * v' k) = 0 := by
    rw [forcePower_onlyOn]
    refine Finset.sum_eq_zero fun i hi => ?_
    rw [hf i (Finset.mem_filter.1 hi).2]
    simp
  rw [hj, hc, hfz, momentumPower_onlyOn, momentumPower_onlyOn] at hd
  have key : ∀ T : Finset ℕ,
      (1 + e) * (∑ i ∈ T, ((bodyAt bs i).ang_inertia * (twist v' i).r ^ 2 +
        (bodyAt bs i).mass * ((twist v' i).x ^ 2 + (twist v' i).y ^ 2)) / 2 -
        ∑ i ∈ T, ((bodyAt bs i).ang_inertia * (twist v i).r ^ 2 +
        (bodyAt bs i).mass * ((twist v i).x ^ 2 + (twist v i).y ^ 2)) / 2) +
      (1 - e) * ∑ i ∈ T, ((bodyAt bs i).ang_inertia * (twist (v' - v) i).r ^ 2 +
        (bodyAt bs i).mass * ((twist (v' - v) i).x ^ 2 + (twist (v' - v) i).y ^ 2)) / 2 =
      ∑ i ∈ T, ((bodyAt bs i).ang_inertia * (twist v' i).r * (twist (fun k => e * v k + 1 * v' k) i).r +
       (bodyAt bs i).mass * ((twist v' i).x * (twist (fun k => e * v k + 1 * v' k) i).x +
        (twist v' i).y * (twist (fun k => e * v k + 1 * v' k) i).y)) -
      ∑ i ∈ T, ((bodyAt bs i).ang_inertia * (twist v i).r * (twist (fun k => e * v k + 1 * v' k) i).r +
       (bodyAt bs i).mass * ((twist v i).x * (twist (fun k => e * v k + 1 * v' k) i).x +
        (twist v i).y * (twist (fun k => e * v k + 1 * v' k) i).y)) := by
    intro T
    rw [← Finset.sum_sub_distrib, ← Finset.sum_sub_distrib, Finset.mul_sum, Finset.mul_sum, ← Finset.sum_add_distrib]
    refine Finset.sum_congr rfl fun i _ => ?_
    simp only [twist, Pi.sub_apply]
    ring
  have := key ((Finset.range bs.length).filter S)
  unfold energyOf
  linarith

/-- C78: a body without contacts and constraints moves freely. -/
theorem C78_isolated_body (bs : List Body) (js : List Joint) (cs : List Contact) (f : ℕ → V3)
    (v v' l : Vec) (pn a b g : ℕ → ℝ) (h : ContactLaw bs js cs f v v' l pn a b g) (i : ℕ) (hi : i < bs.length)
    (hj : ∀ j ∈ js, j.i1 ≠ i ∧ i ∉ j.i2) (hc : ∀ c ∈ cs, c.i1 ≠ i ∧ c.i2 ≠ i)
    (hm : 0 < (bodyAt bs i).mass) (hI : 0 < (bodyAt bs i).ang_inertia) :
    v' (3 * i) = v (3 * i) + (f i).r / (bodyAt bs i).ang_inertia ∧
    v' (3 * i + 1) = v (3 * i + 1) + (f i).x / (bodyAt bs i).mass ∧
    v' (3 * i + 2) = v (3 * i + 2) + (f i).y / (bodyAt bs i).mass := by
  have key : ∀ u : Vec, (bodyAt bs i).ang_inertia * v' (3 * i) * u (3 * i) +
      (bodyAt bs i).mass * (v' (3 * i + 1) * u (3 * i + 1) + v' (3 * i + 2) * u (3 * i + 2)) =
      (bodyAt bs i).ang_inertia * v (3 * i) * u (3 * i) +
      (bodyAt bs i).mass * (v (3 * i + 1) * u (3 * i + 1) + v (3 * i + 2) * u (3 * i + 2)) +
      ((f i).r * u (3 * i) + (f i).x * u (3 * i + 1) + (f i).y * u (3 * i + 2)) := by
    intro u
    have hd := h.dynamics (onlyOn (· = i) u)
    have hj0 : jointPower js l (onlyOn (· = i) u) = 0 := by
      apply jointPower_zero
      intro x hx
      obtain ⟨j, hjm, hx⟩ := List.mem_flatMap.1 hx
      refine jointVel_out (S := (· = i)) ?_ u x hx
      simp only [holds, decide_eq_true_eq, not_or, not_exists, not_and]
      exact ⟨(hj j hjm).1, fun k hk hki => (hj j hjm).2 (hki ▸ hk)⟩
    have hc0 : contactPower cs pn (fun i => a i - b i) (onlyOn (· = i) u) = 0 := by
      unfold contactPower
      refine Finset.sum_eq_zero fun k hk => ?_
      have hk := Finset.mem_range.1 hk
      rw [List.getElem?_eq_getElem hk]
      have := hc _ (List.getElem_mem hk)
      have ht : ¬ touches (· = i) cs[k] = true := by simpa [touches] using this
      simp [normalVel, slipVel, contactVel_out ht, Spec.inner]
    have hs : (Finset.range bs.length).filter (· = i) = {i} := by
      ext k
      simp only [Finset.mem_filter, Finset.mem_range, Finset.mem_singleton]
      constructor
      · exact fun h => h.2
      · rintro rfl; exact ⟨hi, rfl⟩
    rw [hj0, hc0, momentumPower_onlyOn, momentumPower_onlyOn, forcePower_onlyOn, hs] at hd
    simp only [Finset.sum_singleton, twist, add_zero] at hd
    exact hd
  have k1 := key fun k => if k = 3 * i then 1 else 0
  have k2 := key fun k => if k = 3 * i + 1 then 1 else 0
  have k3 := key fun k => if k = 3 * i + 2 then 1 else 0
  have q1 : 3 * i + 1 ≠ 3 * i := by omega
  have q2 : 3 * i + 2 ≠ 3 * i := by omega
  have q3 : 3 * i ≠ 3 * i + 1 := by omega
  have q4 : 3 * i + 2 ≠ 3 * i + 1 := by omega
  have q5 : 3 * i ≠ 3 * i + 2 := by omega
  have q6 : 3 * i + 1 ≠ 3 * i + 2 := by omega
  simp only [if_true, if_neg q1, if_neg q2, if_neg q3, if_neg q4, if_neg q5, if_neg q6] at k1 k2 k3
  refine ⟨?_, ?_, ?_⟩ <;> field_simp <;> linarith

/-- The positions of the kept elements of a filtered list. -/
theorem filter_index {α : Type} (p : α → Bool) : ∀ cs : List α, ∃ idx : ℕ → ℕ,
    (∀ (k : ℕ) (hk : k < (cs.filter p).length), ∃ h : idx k < cs.length, cs[idx k] = (cs.filter p)[k]) ∧
    ∀ G : ℕ → ℝ, (∀ (i : ℕ) (h : i < cs.length), ¬ p cs[i] = true → G i = 0) →
      ∑ i ∈ Finset.range cs.length, G i = ∑ k ∈ Finset.range (cs.filter p).length, G (idx k)
  | [] => ⟨id, by simp, by simp⟩
  | c :: cs => by
    obtain ⟨idx, h1, h2⟩ := filter_index p cs
    by_cases hp : p c = true
    · refine ⟨fun k => if k = 0 then 0 else idx (k - 1) + 1, ?_, ?_⟩
      · intro k hk
        cases k with
        | zero => simp [hp]
        | succ k =>
          simp only [List.filter_cons_of_pos hp, List.length_cons, Nat.add_lt_add_iff_right] at hk
          obtain ⟨h, e⟩ := h1 k hk
          simp only [Nat.succ_ne_zero, if_false, Nat.add_sub_cancel]
          refine ⟨by simpa using h, ?_⟩
          simp [List.filter_cons_of_pos hp, e]
      · intro G hG
        have := h2 (fun i => G (i + 1)) fun i h hn => hG (i + 1) (by simpa using h) (by simpa using hn)
        rw [List.filter_cons_of_pos hp, List.length_cons, List.length_cons, Finset.sum_range_succ',
          Finset.sum_range_succ', this]
        simp
    · refine ⟨fun k => idx k + 1, ?_, ?_⟩
      · intro k hk
        rw [List.filter_cons_of_neg hp] at hk
        obtain ⟨h, e⟩ := h1 k hk
        refine ⟨by simpa using h, ?_⟩
        simp [List.filter_cons_of_neg hp, e]
      · intro G hG
        have := h2 (fun i => G (i + 1)) fun i h hn => hG (i + 1) (by simpa using h) (by simpa using hn)
        rw [List.filter_cons_of_neg hp, List.length_cons, Finset.sum_range_succ', this,
          hG 0 (by simp) (by simpa using hp)]
        simp

/-- C78: without friction, two scenes that agree on an island - its bodies, velocities, impulses, constraints and
contacts - give it the same velocity, whatever else there is. -/
theorem C78_locality (S : ℕ → Prop) [DecidablePred S] (bs bs' : List Body) (js js' : List Joint)
    (cs cs' : List Contact) (f f' : ℕ → V3) (v v1 w w1 l l' : Vec) (pn a b g pn' a' b' g' : ℕ → ℝ)
    (h1 : ContactLaw bs js cs f v v1 l pn a b g) (h2 : ContactLaw bs' js' cs' f' w w1 l' pn' a' b' g')
    (i1 : Island S js cs v v1) (i2 : Island S js' cs' w w1)
    (hb : ∀ i, S i → i < bs.length ∧ i < bs'.length ∧ (bodyAt bs i).mass = (bodyAt bs' i).mass ∧
      (bodyAt bs i).ang_inertia = (bodyAt bs' i).ang_inertia ∧ 0 < (bodyAt bs i).mass ∧
      0 < (bodyAt bs i).ang_inertia)
    (hv : ∀ i, S i → twist v i = twist w i ∧ f i = f' i)
    (hj : ∀ j, holds S j = true → (j ∈ js ↔ j ∈ js'))
    (hc : cs.filter (touches S) = cs'.filter (touches S))
    (hmu : ∀ c ∈ cs, touches S c = true → meanFriction bs c = 0 ∧ meanFriction bs' c = 0 ∧
      meanRestitution bs c = meanRestitution bs' c) :
    ∀ i, S i → twist v1 i = twist w1 i := by
  set u : Vec := onlyOn S fun k => 1 * v1 k + (-1) * w1 k with hu
  have hx0 : ∀ m, twist v1 m = 0 → twist w1 m = 0 → twist (fun k => 1 * v1 k + (-1) * w1 k) m = 0 := by
    intro m q1 q2
    rw [twist_lin, q1, q2]
    apply V3.ext <;> simp
  have hj0 : ∀ l, jointPower js l u = 0 := by
    intro l
    apply jointPower_zero
    intro x hx
    obtain ⟨j, hjm, hx⟩ := List.mem_flatMap.1 hx
    by_cases ht : holds S j = true
    · have hjm' := (hj j ht).1 hjm
      rw [hu, jointVel_cut ht] at hx
      · exact jointVel_lin_zero j 1 (-1) v1 w1 (fun y hy => h1.joints y (List.mem_flatMap.2 ⟨j, hjm, hy⟩))
          (fun y hy => h2.joints y (List.mem_flatMap.2 ⟨j, hjm', hy⟩)) x hx
      · intro k hk
        refine ⟨fun q => ?_, fun q => ?_⟩
        · by_cases hS : S k
          · exact .inl hS
          · exact .inr (hx0 k (((i1.joints j hjm k hk).1 q).resolve_left hS).2
              (((i2.joints j hjm' k hk).1 q).resolve_left hS).2)
        · by_cases hS : S j.i1
          · exact .inl hS
          · exact .inr (hx0 _ (((i1.joints j hjm k hk).2 q).resolve_left hS).2
              (((i2.joints j hjm' k hk).2 q).resolve_left hS).2)
    · exact jointVel_out ht _ x hx
  have hj0' : ∀ l, jointPower js' l u = 0 := by
    intro l
    apply jointPower_zero
    intro x hx
    obtain ⟨j, hjm', hx⟩ := List.mem_flatMap.1 hx
    by_cases ht : holds S j = true
    · have hjm := (hj j ht).2 hjm'
      rw [hu, jointVel_cut ht] at hx
      · exact jointVel_lin_zero j 1 (-1) v1 w1 (fun y hy => h1.joints y (List.mem_flatMap.2 ⟨j, hjm, hy⟩))
          (fun y hy => h2.joints y (List.mem_flatMap.2 ⟨j, hjm', hy⟩)) x hx
      · intro k hk
        refine ⟨fun q => ?_, fun q => ?_⟩
        · by_cases hS : S k
          · exact .inl hS
          · exact .inr (hx0 k (((i1.joints j hjm k hk).1 q).resolve_left hS).2
              (((i2.joints j hjm' k hk).1 q).resolve_left hS).2)
        · by_cases hS : S j.i1
          · exact .inl hS
          · exact .inr (hx0 _ (((i1.joints j hjm k hk).2 q).resolve_left hS).2
              (((i2.joints j hjm' k hk).2 q).resolve_left hS).2)
    · exact jointVel_out ht _ x hx
  obtain ⟨idx, k1, k2⟩ := filter_index (touches S) cs
  obtain ⟨idx', k1', k2'⟩ := filter_index (touches S) cs'
  have hcp : ∀ (cs : List Contact) (idx : ℕ → ℕ)
      (k1 : ∀ (k : ℕ) (hk : k < (cs.filter (touches S)).length), ∃ h : idx k < cs.length,
        cs[idx k] = (cs.filter (touches S))[k])
      (k2 : ∀ G : ℕ → ℝ, (∀ (i : ℕ) (h : i < cs.length), ¬ touches S cs[i] = true → G i = 0) →
        ∑ i ∈ Finset.range cs.length, G i = ∑ k ∈ Finset.range (cs.filter (touches S)).length, G (idx k))
      (pn pt : ℕ → ℝ), contactPower cs pn pt u = ∑ k ∈ Finset.range (cs.filter (touches S)).length,
        match (cs.filter (touches S))[k]? with
        | none => 0
        | some c => pn (idx k) * normalVel c u + pt (idx k) * slipVel c u := by
    intro cs idx k1 k2 pn pt
    unfold contactPower
    rw [k2]
    · refine Finset.sum_congr rfl fun k hk => ?_
      have hk := Finset.mem_range.1 hk
      obtain ⟨h, e⟩ := k1 k hk
      rw [List.getElem?_eq_getElem h, List.getElem?_eq_getElem hk, e]
    · intro i h hn
      rw [List.getElem?_eq_getElem h]
      simp [normalVel, slipVel, hu, contactVel_out hn, Spec.inner]
  have d1 := h1.dynamics u
  have d2 := h2.dynamics u
  rw [hj0, hcp cs idx k1 k2, hu, momentumPower_onlyOn, momentumPower_onlyOn, forcePower_onlyOn, ← hu] at d1
  rw [hj0', hcp cs' idx' k1' k2', hu, momentumPower_onlyOn, momentumPower_onlyOn, forcePower_onlyOn, ← hu] at d2
  have hset : (Finset.range bs.length).filter S = (Finset.range bs'.length).filter S := by
    ext i
    simp only [Finset.mem_filter, Finset.mem_range]
    exact ⟨fun h => ⟨(hb i h.2).2.1, h.2⟩, fun h => ⟨(hb i h.2).1, h.2⟩⟩
  set T := (Finset.range bs.length).filter S with hT
  rw [← hset, ← hc] at d2
  have hTS : ∀ i ∈ T, S i := fun i hi => (Finset.mem_filter.1 hi).2
  set x : Vec := fun k => 1 * v1 k + (-1) * w1 k with hxdef
  have hsum : ∑ i ∈ T, ((bodyAt bs i).ang_inertia * (twist x i).r ^ 2 +
      (bodyAt bs i).mass * ((twist x i).x ^ 2 + (twist x i).y ^ 2)) ≤ 0 := by
    have e1 : ∑ i ∈ T, ((bodyAt bs i).ang_inertia * (twist x i).r ^ 2 +
        (bodyAt bs i).mass * ((twist x i).x ^ 2 + (twist x i).y ^ 2)) =
        ∑ i ∈ T, ((bodyAt bs i).ang_inertia * (twist v1 i).r * (twist x i).r +
          (bodyAt bs i).mass * ((twist v1 i).x * (twist x i).x + (twist v1 i).y * (twist x i).y)) -
        ∑ i ∈ T, ((bodyAt bs' i).ang_inertia * (twist w1 i).r * (twist x i).r +
          (bodyAt bs' i).mass * ((twist w1 i).x * (twist x i).x + (twist w1 i).y * (twist x i).y)) := by
      rw [← Finset.sum_sub_distrib]
      refine Finset.sum_congr rfl fun i hi => ?_
      obtain ⟨-, -, m1, m2, -⟩ := hb i (hTS i hi)
      rw [← m1, ← m2, hxdef, twist_lin]
      ring
    have e2 : ∑ i ∈ T, ((bodyAt bs i).ang_inertia * (twist v i).r * (twist x i).r +
          (bodyAt bs i).mass * ((twist v i).x * (twist x i).x + (twist v i).y * (twist x i).y)) =
        ∑ i ∈ T, ((bodyAt bs' i).ang_inertia * (twist w i).r * (twist x i).r +
          (bodyAt bs' i).mass * ((twist w i).x * (twist x i).x + (twist w i).y * (twist x i).y)) := by
      refine Finset.sum_congr rfl fun i hi => ?_
      obtain ⟨-, -, m1, m2, -⟩ := hb i (hTS i hi)
      rw [← m1, ← m2, (hv i (hTS i hi)).1]
    have e3 : ∑ i ∈ T, ((f i).r * (twist x i).r + (f i).x * (twist x i).x + (f i).y * (twist x i).y) =
        ∑ i ∈ T, ((f' i).r * (twist x i).r + (f' i).x * (twist x i).x + (f' i).y * (twist x i).y) := by
      refine Finset.sum_congr rfl fun i hi => ?_
      rw [(hv i (hTS i hi)).2]
    rw [e1, d1, d2, e2, e3]
    have : ∀ A B C D : ℝ, A + B + 0 + C - (A + B + 0 + D) = C - D := by intros; ring
    rw [this, ← Finset.sum_sub_distrib]
    refine Finset.sum_nonpos fun k hk => ?_
    have hk := Finset.mem_range.1 hk
    rw [List.getElem?_eq_getElem hk]
    simp only
    obtain ⟨q, e⟩ := k1 k hk
    have hk' : k < (cs'.filter (touches S)).length := hc ▸ hk
    obtain ⟨q', e'⟩ := k1' k hk'
    have ec : (cs'.filter (touches S))[k] = (cs.filter (touches S))[k] := by
      congr 1
      exact hc.symm
    rw [ec] at e'
    set c := (cs.filter (touches S))[k] with hcdef
    have hmem : c ∈ cs := e ▸ List.getElem_mem q
    have hmem' : c ∈ cs' := e' ▸ List.getElem_mem q'
    have ht : touches S c = true := (List.mem_filter.1 (List.getElem_mem hk)).2
    obtain ⟨mu1, mu2, er⟩ := hmu c hmem ht
    obtain ⟨c1, -⟩ := h1.cone _ q
    obtain ⟨c2, -⟩ := h2.cone _ q'
    obtain ⟨np1, na1, nb1, -⟩ := h1.nonneg _ q
    obtain ⟨np2, na2, nb2, -⟩ := h2.nonneg _ q'
    obtain ⟨r1, r2⟩ := h1.restitution _ q
    obtain ⟨r3, r4⟩ := h2.restitution _ q'
    rw [e] at c1 r1 r2
    rw [e'] at c2 r3 r4
    rw [mu1] at c1
    rw [mu2] at c2
    have z1 : a (idx k) = 0 := by linarith
    have z2 : b (idx k) = 0 := by linarith
    have z3 : a' (idx' k) = 0 := by linarith
    have z4 : b' (idx' k) = 0 := by linarith
    have hI1 := i1.contacts c hmem
    have hI2 := i2.contacts c hmem'
    have hn : normalVel c u = normalVel c v1 - normalVel c w1 := by
      have : contactVel c u = contactVel c x := by
        refine contactVel_cut ht x (fun q => ?_) (fun q => ?_)
        · by_cases hS : S c.i2
          · exact .inl hS
          · exact .inr (hx0 _ ((hI1.1 q).resolve_left hS).2 ((hI2.1 q).resolve_left hS).2)
        · by_cases hS : S c.i1
          · exact .inl hS
          · exact .inr (hx0 _ ((hI1.2 q).resolve_left hS).2 ((hI2.2 q).resolve_left hS).2)
      have e0 := (contactVel_lin c 1 (-1) v1 w1).1
      rw [show normalVel c u = normalVel c x by simp only [normalVel, this], hxdef, e0]
      ring
    have hpre : normalVel c v = normalVel c w := by
      have ht2 : S c.i1 ∨ S c.i2 := by simpa [touches] using ht
      have t1 : twist v c.i1 = twist w c.i1 := by
        by_cases hS : S c.i1
        · exact (hv _ hS).1
        · rw [((hI1.2 (ht2.resolve_left hS)).resolve_left hS).1, ((hI2.2 (ht2.resolve_left hS)).resolve_left hS).1]
      have t2 : twist v c.i2 = twist w c.i2 := by
        by_cases hS : S c.i2
        · exact (hv _ hS).1
        · rw [((hI1.1 (ht2.resolve_right hS)).resolve_left hS).1, ((hI2.1 (ht2.resolve_right hS)).resolve_left hS).1]
      simp only [normalVel, contactVel_congr t1 t2]
    rw [hpre, er] at r1 r2
    rw [hn, z1, z2, z3, z4]
    nlinarith [mul_nonneg np1 r3, mul_nonneg np2 r1]
  have hterm : ∀ i ∈ T, 0 ≤ (bodyAt bs i).ang_inertia * (twist x i).r ^ 2 +
      (bodyAt bs i).mass * ((twist x i).x ^ 2 + (twist x i).y ^ 2) := by
    intro i hi
    obtain ⟨-, -, -, -, p1, p2⟩ := hb i (hTS i hi)
    positivity
  have h0 := (Finset.sum_eq_zero_iff_of_nonneg hterm).1 (le_antisymm hsum (Finset.sum_nonneg hterm))
  intro i hi
  obtain ⟨hlt, -, -, -, p1, p2⟩ := hb i hi
  have e := h0 i (Finset.mem_filter.2 ⟨Finset.mem_range.2 hlt, hi⟩)
  have q1 : 0 ≤ (bodyAt bs i).ang_inertia * (twist x i).r ^ 2 := by positivity
  have q2 : 0 ≤ (bodyAt bs i).mass * (twist x i).x ^ 2 := by positivity
  have q3 : 0 ≤ (bodyAt bs i).mass * (twist x i).y ^ 2 := by positivity
  have z1 : (bodyAt bs i).ang_inertia * (twist x i).r ^ 2 = 0 := by nlinarith
  have z2 : (bodyAt bs i).mass * (twist x i).x ^ 2 = 0 := by nlinarith
  have z3 : (bodyAt bs i).mass * (twist x i).y ^ 2 = 0 := by nlinarith
  have y1 : (twist x i).r = 0 := pow_eq_zero_iff (n := 2) (by norm_num) |>.1 ((mul_eq_zero.1 z1).resolve_left p2.ne')
  have y2 : (twist x i).x = 0 := pow_eq_zero_iff (n := 2) (by norm_num) |>.1 ((mul_eq_zero.1 z2).resolve_left p1.ne')
  have y3 : (twist x i).y = 0 := pow_eq_zero_iff (n := 2) (by norm_num) |>.1 ((mul_eq_zero.1 z3).resolve_left p1.ne')
  rw [hxdef, twist_lin] at y1 y2 y3
  simp only at y1 y2 y3
  apply V3.ext <;> linarith

/-! ## Two balls on either side of a fixed wall -/

/-- A fixed unit circle between two others; the left one hits it with speed 1, the right one moves with
velocity `x`. -/
def dividedWorld (e x : ℝ) : World (Option Mat) Unit :=
  { t := 0, dt := 1, eps := 0, tol := 0, post_stab := false, strict_no_pen := true,
    bodies := [unitCircle (-2) e 0, unitCircle 0 e 0, unitCircle 2 e 0],
    joints := [mkTotal [unitCircle (-2) e 0, unitCircle 0 e 0, unitCircle 2 e 0] 1],
    v := fun k => if k = 1 then 1 else if k = 7 then x else 0,
    contacts := [{ normal := (-1, 0), p1 := (1, 0), p2 := (-1, 0), pen := 0, i1 := 0, i2 := 1 },
      { normal := (1, 0), p1 := (-1, 0), p2 := (1, 0), pen := 0, i1 := 2, i2 := 1 }], eng := none, fnd := () }

theorem divided_solvable (e x : ℝ) : ∃ v' l pn a b g, ContactLaw (dividedWorld e x).bodies (dividedWorld e x).joints
    (dividedWorld e x).contacts (fun _ => 0) (dividedWorld e x).v v' l pn a b g := by
  obtain ⟨v', l, pn, a, b, g, h, -⟩ := C74_common_restitution (dividedWorld e x)
    (by
      intro j hj
      simp [dividedWorld, mkTotal] at hj
      rcases hj with rfl; simp [dividedWorld])
    (by
      intro c hc
      simp [dividedWorld] at hc
      rcases hc with rfl | rfl <;> simp [dividedWorld])
    (by
      intro b hb
      simp [dividedWorld] at hb
      rcases hb with rfl | rfl | rfl <;> simp [unitCircle])
    (by
      intro c hc
      simp [dividedWorld] at hc
      rcases hc with rfl | rfl <;> simp [dividedWorld, meanFriction, bodyAt, unitCircle])
    e
    (by
      intro c hc
      simp [dividedWorld] at hc
      rcases hc with rfl | rfl <;> simp [dividedWorld, meanRestitution, bodyAt, unitCircle])
    (by simp [dividedWorld, jointVels, jointVel, mkTotal, twist]) fun _ => 0
  exact ⟨v', l, pn, a, b, g, h⟩

theorem divided_island (e x : ℝ) {v' l : Vec} {pn a b g : ℕ → ℝ}
    (h : ContactLaw (dividedWorld e x).bodies (dividedWorld e x).joints (dividedWorld e x).contacts (fun _ => 0)
      (dividedWorld e x).v v' l pn a b g) :
    Island (· = 0) (dividedWorld e x).joints (dividedWorld e x).contacts (dividedWorld e x).v v' := by
  have hr : Rests (dividedWorld e x).v v' 1 := by
    have := h.joints
    simp [dividedWorld, jointVels, jointVel, mkTotal, twist] at this
    refine ⟨?_, ?_⟩
    · simp [twist, dividedWorld]; rfl
    · simp [twist, this]; rfl
  constructor
  · intro j hj k hk
    simp [dividedWorld, mkTotal] at hj
    subst hj
    simp at hk
  · intro c hc
    simp [dividedWorld] at hc
    rcases hc with rfl | rfl
    · simp [hr]
    · simp

/-- The left ball bounces the same way whatever the right one does, -/
example (e x y : ℝ) : ∃ u : V3, ∀ z, z = x ∨ z = y → ∃ v' l pn a b g,
    ContactLaw (dividedWorld e z).bodies (dividedWorld e z).joints (dividedWorld e z).contacts (fun _ => 0)
      (dividedWorld e z).v v' l pn a b g ∧ twist v' 0 = u := by
  obtain ⟨v1, l1, pn1, a1, b1, g1, h1⟩ := divided_solvable e x
  obtain ⟨v2, l2, pn2, a2, b2, g2, h2⟩ := divided_solvable e y
  refine ⟨twist v1 0, ?_⟩
  rintro z (rfl | rfl)
  · exact ⟨_, _, _, _, _, _, h1, rfl⟩
  · refine ⟨_, _, _, _, _, _, h2, ?_⟩
    refine C78_locality (· = 0) _ _ _ _ _ _ _ _ _ _ _ _ _ _ _ _ _ _ _ _ _ _ h2 h1 (divided_island e z h2)
      (divided_island e x h1) ?_ ?_ ?_ ?_ ?_ 0 rfl
    · rintro i rfl
      simp [dividedWorld, bodyAt, unitCircle]
    · rintro i rfl
      simp [dividedWorld, twist]
    · intro j _
      simp [dividedWorld]
    · simp [dividedWorld]
    · intro c hc _
      simp [dividedWorld] at hc
      rcases hc with rfl | rfl <;> simp [dividedWorld, meanFriction, meanRestitution, bodyAt, unitCircle]

/-- and with restitution 1 it keeps its energy. -/
example (x : ℝ) : ∃ v' l pn a b g, ContactLaw (dividedWorld 1 x).bodies (dividedWorld 1 x).joints
    (dividedWorld 1 x).contacts (fun _ => 0) (dividedWorld 1 x).v v' l pn a b g ∧
    (twist v' 0).r ^ 2 + (twist v' 0).x ^ 2 + (twist v' 0).y ^ 2 = 1 := by
  obtain ⟨v', l, pn, a, b, g, h⟩ := divided_solvable 1 x
  refine ⟨v', l, pn, a, b, g, h, ?_⟩
  have := C78_island_energy (· = 0) _ _ _ _ _ _ _ _ _ _ _ 1 h (divided_island 1 x h) (fun _ _ => rfl)
    (by
      intro c hc _
      simp [dividedWorld] at hc
      rcases hc with rfl | rfl <;> simp [dividedWorld, meanFriction, bodyAt, unitCircle])
    (by
      intro c hc _
      simp [dividedWorld] at hc
      rcases hc with rfl | rfl <;> simp [dividedWorld, meanRestitution, bodyAt, unitCircle])
    (by
      intro j hj hh
      simp [dividedWorld, mkTotal] at hj
      subst hj
      simp [holds] at hh)
  have hs : (Finset.range 3).filter (· = 0) = {0} := by decide
  simp only [energyOf, dividedWorld, List.length_cons, List.length_nil, Nat.reduceAdd, hs, Finset.sum_singleton] at this
  simp [bodyAt, unitCircle] at this
  have e0 : twist (fun k => if k = 1 then (1 : ℝ) else if k = 7 then x else 0) 0 = ⟨0, 1, 0⟩ := by simp [twist]
  rw [e0] at this
  simp at this
  linarith

/-- The right ball, if it does not touch anything, flies on. -/
example (v' l : Vec) (pn a b g : ℕ → ℝ)
    (h : ContactLaw (dividedWorld 1 3).bodies (dividedWorld 1 3).joints ((dividedWorld 1 3).contacts.take 1) (fun _ => 0)
      (dividedWorld 1 3).v v' l pn a b g) : v' 7 = 3 := by
  have := C78_isolated_body _ _ _ _ _ _ _ _ _ _ _ h 2 (by simp [dividedWorld])
    (by
      intro j hj
      simp [dividedWorld, mkTotal] at hj
      subst hj
      simp)
    (by simp [dividedWorld]) (by simp [dividedWorld, bodyAt, unitCircle]) (by simp [dividedWorld, bodyAt, unitCircle])
  have := this.2.1
  simp [dividedWorld] at this
  exact this

end LcpPhysics
