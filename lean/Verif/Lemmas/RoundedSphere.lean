import Verif.Lemmas.RoundedVec

/-!
# Helper lemmas on the sphere test of meshes in floating point arithmetic: corners and edges
-/

namespace Geo.RoundedSphere
open Spec RoundedVec

variable {u : ℝ} {rnd : ℝ → ℝ}

theorem rnd_ge (h : RelErr u rnd) {x : ℝ} (hx : 0 ≤ x) : (1 - u) * x ≤ rnd x := by
  have := (abs_le.1 (h x)).1
  rw [abs_of_nonneg hx] at this
  linarith

theorem rnd_le (h : RelErr u rnd) {x : ℝ} (hx : 0 ≤ x) : rnd x ≤ (1 + u) * x := by
  have := (abs_le.1 (h x)).2
  rw [abs_of_nonneg hx] at this
  linarith

theorem slack_bounds (h : RelErr u rnd) (hu : u ≤ 1e-11) :
    1 + 0.9e-9 ≤ rnd (1 + rnd 1e-9) ∧ rnd (1 + rnd 1e-9) ≤ 1 + 1.1e-9 := by
  have hu0 := Rounded.relErr_nonneg h
  have h1 := rnd_ge h (x := 1e-9) (by norm_num)
  have h2 := rnd_le h (x := 1e-9) (by norm_num)
  have h3 := rnd_ge h (x := 1 + rnd 1e-9) (by nlinarith)
  have h4 := rnd_le h (x := 1 + rnd 1e-9) (by nlinarith)
  constructor
  · have : (1 - u) * (1 + (1 - u) * 1e-9) ≤ (1 - u) * (1 + rnd 1e-9) := mul_le_mul_of_nonneg_left (by linarith) (by linarith)
    have h5 : u * u ≤ 1e-11 * u := mul_le_mul_of_nonneg_right hu hu0
    nlinarith
  · have : (1 + u) * (1 + rnd 1e-9) ≤ (1 + u) * (1 + (1 + u) * 1e-9) := mul_le_mul_of_nonneg_left (by linarith) (by linarith)
    have h5 : u * u ≤ 1e-11 * u := mul_le_mul_of_nonneg_right hu hu0
    nlinarith

/-- The square of the projection as computed: `t'` is the length of the projection. -/
theorem proj_sq (h : RelErr u rnd) (hu : u ≤ 1 / 1000) {L d l2 : ℝ} (hL : 0 < L) (hl : |l2 - L ^ 2| ≤ 5.1 * u * L ^ 2) :
    |rnd (rnd (d * d) / l2) - (d / L) ^ 2| ≤ 7.3 * u * (d / L) ^ 2 := by
  have hu0 := Rounded.relErr_nonneg h
  have hL2 : 0 < L ^ 2 := by positivity
  obtain ⟨g1, g2⟩ := abs_le.1 hl
  have h99 : 0.994 * L ^ 2 ≤ l2 := by nlinarith
  have hl0 : 0 < l2 := by linarith
  obtain ⟨s, hs⟩ : ∃ s, s = (d / L) ^ 2 := ⟨_, rfl⟩
  have hs0 : 0 ≤ s := by rw [hs]; positivity
  have hd : d * d = s * L ^ 2 := by rw [hs]; field_simp
  rw [← hs, hd]
  have e1 : |s * L ^ 2 / l2 - s| ≤ 5.15 * u * s := by
    rw [show s * L ^ 2 / l2 - s = s * ((L ^ 2 - l2) / l2) by field_simp, abs_mul, abs_of_nonneg hs0, abs_div, abs_of_pos hl0,
      abs_sub_comm, mul_comm _ s]
    refine mul_le_mul_of_nonneg_left ?_ hs0
    rw [div_le_iff₀ hl0]
    have : 5.15 * u * (0.994 * L ^ 2) ≤ 5.15 * u * l2 := mul_le_mul_of_nonneg_left h99 (by positivity)
    have : 0 ≤ u * L ^ 2 := by positivity
    linarith
  have e2 : |rnd (s * L ^ 2) / l2 - s| ≤ 6.2 * u * s := by
    have h3 := h (s * L ^ 2)
    have h4 : |rnd (s * L ^ 2) / l2 - s * L ^ 2 / l2| ≤ u * (s * L ^ 2 / l2) := by
      rw [← sub_div, abs_div, abs_of_pos hl0, ← mul_div_assoc]
      refine div_le_div_of_nonneg_right ?_ hl0.le
      rwa [abs_of_nonneg (a := s * L ^ 2) (by positivity)] at h3
    have h5 : s * L ^ 2 / l2 ≤ 1.01 * s := by
      have := (abs_le.1 e1).2
      nlinarith
    have h6 := abs_sub_le (rnd (s * L ^ 2) / l2) (s * L ^ 2 / l2) s
    have h7 : u * (s * L ^ 2 / l2) ≤ u * (1.01 * s) := mul_le_mul_of_nonneg_left h5 hu0
    have : 0 ≤ u * s := by positivity
    linarith
  have := round_abs h hu (x := s) (S := s) (k := 6.2) (by norm_num) (by rw [abs_of_nonneg hs0]) e2
  have : 0 ≤ u * s := by positivity
  linarith

/-- The computed square of the projection against the exact one. -/
theorem proj_sq' (h : RelErr u rnd) (hu : u ≤ 1 / 1000) {L d l2 t A : ℝ} (hL : 0 < L)
    (hl : |l2 - L ^ 2| ≤ 5.1 * u * L ^ 2) (hA : 0 ≤ A) (ht : |t| ≤ A) (hd : |d - t * L| ≤ 5.1 * u * (L * A)) :
    |d / L - t| ≤ 5.1 * u * A ∧ |rnd (rnd (d * d) / l2) - t ^ 2| ≤ 17.8 * u * A ^ 2 := by
  have hu0 := Rounded.relErr_nonneg h
  have h1 : |d / L - t| ≤ 5.1 * u * A := by
    rw [show d / L - t = (d - t * L) / L by field_simp, abs_div, abs_of_pos hL, div_le_iff₀ hL]
    linarith
  refine ⟨h1, ?_⟩
  have h2 := proj_sq h hu hL hl (d := d)
  obtain ⟨e, he⟩ : ∃ e, e = d / L - t := ⟨_, rfl⟩
  have hs : (d / L) ^ 2 = t ^ 2 + 2 * t * e + e ^ 2 := by rw [he]; ring
  rw [← he] at h1
  have he2 : e ^ 2 ≤ 0.03 * u * A ^ 2 := by
    have := pow_le_pow_left₀ (abs_nonneg e) h1 2
    rw [sq_abs] at this
    have : (5.1 * u * A) ^ 2 ≤ 0.03 * u * A ^ 2 := by
      have : u * u ≤ u * (1 / 1000) := mul_le_mul_of_nonneg_left hu hu0
      have := mul_le_mul_of_nonneg_right this (sq_nonneg A)
      have e1 : (5.1 * u * A) ^ 2 = 26.01 * (u * u * A ^ 2) := by ring
      have : 0 ≤ u * A ^ 2 := by positivity
      rw [e1]; linarith
    linarith
  have hte : |2 * t * e| ≤ 10.2 * u * A ^ 2 := by
    rw [abs_mul, abs_mul, abs_of_pos (by norm_num : (0:ℝ) < 2)]
    have := mul_le_mul ht h1 (abs_nonneg _) hA
    linarith
  have htt : t ^ 2 ≤ A ^ 2 := by
    rw [← sq_abs]; exact pow_le_pow_left₀ (abs_nonneg t) ht 2
  have hA2 : 0 ≤ u * A ^ 2 := by positivity
  have hs' : (d / L) ^ 2 ≤ 1.02 * A ^ 2 := by
    rw [hs]
    have := (abs_le.1 hte).2
    have : u * A ^ 2 ≤ 1 / 1000 * A ^ 2 := mul_le_mul_of_nonneg_right hu (sq_nonneg A)
    linarith
  have h3 : 7.3 * u * (d / L) ^ 2 ≤ 7.3 * u * (1.02 * A ^ 2) := mul_le_mul_of_nonneg_left hs' (by positivity)
  have h4 := abs_sub_le (rnd (rnd (d * d) / l2)) ((d / L) ^ 2) (t ^ 2)
  have h5 : |(d / L) ^ 2 - t ^ 2| ≤ 10.23 * u * A ^ 2 := by
    rw [show (d / L) ^ 2 - t ^ 2 = 2 * t * e + e ^ 2 by rw [hs]; ring]
    refine (abs_add_le _ _).trans ?_
    rw [abs_of_nonneg (sq_nonneg e)]
    linarith
  linarith

/-- The two comparisons of `checkLinesegment` hold for a point that is clearly near the segment. -/
theorem edge_hit (h : RelErr u rnd) (hu : u ≤ 1e-11) {L d d1 l2 t A D R : ℝ} (hL : 0 < L)
    (hl : |l2 - L ^ 2| ≤ 5.1 * u * L ^ 2) (hA : 0 ≤ A) (hAD : A ≤ D) (ht : |t| ≤ A) (hd : |d - t * L| ≤ 5.1 * u * (L * A))
    (hd1 : |d1 - A ^ 2| ≤ 5.1 * u * A ^ 2) (hd0 : 0 ≤ d) (htL : d / L ≤ L) (hR : A ^ 2 - t ^ 2 + 30 * u * D ^ 2 ≤ R ^ 2) :
    rnd (rnd (d * d) / l2) ≤ rnd (l2 * rnd (1 + rnd 1e-9)) ∧
      rnd (d1 - rnd (rnd (d * d) / l2)) ≤ rnd (rnd (R * R) * rnd (1 + rnd 1e-9)) := by
  have hu0 := Rounded.relErr_nonneg h
  have hu1 : u ≤ 1 / 1000 := by linarith
  obtain ⟨-, h2⟩ := proj_sq' h hu1 hL hl hA ht hd
  have h3 := proj_sq h hu1 hL hl (d := d)
  obtain ⟨s1, s2⟩ := slack_bounds h hu
  generalize rnd (1 + rnd 1e-9) = σ at *
  have hL2 : 0 < L ^ 2 := by positivity
  have hl2 : (1 - 5.1e-11) * L ^ 2 ≤ l2 := by
    have := (abs_le.1 hl).1
    have : u * L ^ 2 ≤ 1e-11 * L ^ 2 := mul_le_mul_of_nonneg_right hu hL2.le
    linarith
  generalize rnd (rnd (d * d) / l2) = w at *
  constructor
  · have a1 : w ≤ (1 + 7.3e-11) * (d / L) ^ 2 := by
      have := (abs_le.1 h3).2
      have : u * (d / L) ^ 2 ≤ 1e-11 * (d / L) ^ 2 := mul_le_mul_of_nonneg_right hu (sq_nonneg _)
      linarith
    have a2 : (d / L) ^ 2 ≤ L ^ 2 := pow_le_pow_left₀ (by positivity) htL 2
    have a3 : (1 - 5.1e-11) * L ^ 2 * (1 + 0.9e-9) ≤ l2 * σ := mul_le_mul hl2 s1 (by norm_num) (by linarith)
    have a4 := rnd_ge h (x := l2 * σ) (by nlinarith)
    have a5 : (1 - 1e-11) * (l2 * σ) ≤ (1 - u) * (l2 * σ) := mul_le_mul_of_nonneg_right (by linarith) (by nlinarith)
    linarith
  · have hA2D : A ^ 2 ≤ D ^ 2 := pow_le_pow_left₀ hA hAD 2
    have b1 : d1 - w ≤ A ^ 2 - t ^ 2 + 22.9 * u * A ^ 2 := by
      have := (abs_le.1 hd1).2
      have := (abs_le.1 h2).1
      linarith
    have htt : t ^ 2 ≤ A ^ 2 := by
      rw [← sq_abs]; exact pow_le_pow_left₀ (abs_nonneg t) ht 2
    have hA0 : 0 ≤ A ^ 2 := sq_nonneg A
    have hD0 : 0 ≤ u * D ^ 2 := by positivity
    have uA : u * A ^ 2 ≤ u * D ^ 2 := mul_le_mul_of_nonneg_left hA2D hu0
    have uuA : u * (u * D ^ 2) ≤ 1e-11 * (u * D ^ 2) := mul_le_mul_of_nonneg_right hu hD0
    have b2 : rnd (d1 - w) ≤ A ^ 2 - t ^ 2 + 25 * u * D ^ 2 := by
      have := round_abs h hu1 (x := A ^ 2 - t ^ 2) (x' := d1 - w) (S := A ^ 2) (k := 22.9) (by norm_num)
        (by rw [abs_of_nonneg (by linarith)]; linarith [sq_nonneg t]) (by
          rw [show d1 - w - (A ^ 2 - t ^ 2) = (d1 - A ^ 2) - (w - t ^ 2) by ring]
          refine (abs_sub _ _).trans ?_
          linarith)
      have := (abs_le.1 this).2
      linarith
    have c1 := rnd_ge h (x := R * R) (mul_self_nonneg R)
    have c2 : (1 - u) * (R * R) * 1 ≤ rnd (R * R) * σ := by
      refine mul_le_mul c1 (by linarith) (by norm_num) (le_trans ?_ c1)
      exact mul_nonneg (by linarith) (mul_self_nonneg R)
    have c3 : 0 ≤ (1 - u) * (R * R) := mul_nonneg (by linarith) (mul_self_nonneg R)
    have c4 := rnd_ge h (x := rnd (R * R) * σ) (by linarith)
    have c5 : (1 - u) * ((1 - u) * (R * R)) ≤ (1 - u) * (rnd (R * R) * σ) := mul_le_mul_of_nonneg_left (by linarith) (by linarith)
    have c6 : (1 - u) * ((1 - u) * (A ^ 2 - t ^ 2 + 30 * u * D ^ 2)) ≤ (1 - u) * ((1 - u) * (R * R)) := by
      refine mul_le_mul_of_nonneg_left (mul_le_mul_of_nonneg_left (by linarith) (by linarith)) (by linarith)
    have c7 : A ^ 2 - t ^ 2 + 25 * u * D ^ 2 ≤ (1 - u) * ((1 - u) * (A ^ 2 - t ^ 2 + 30 * u * D ^ 2)) := by
      have e : (1 - u) * ((1 - u) * (A ^ 2 - t ^ 2 + 30 * u * D ^ 2)) = A ^ 2 - t ^ 2 + 30 * u * D ^ 2
        - 2 * u * (A ^ 2 - t ^ 2) - 60 * (u * (u * D ^ 2)) + u * u * (A ^ 2 - t ^ 2 + 30 * u * D ^ 2) := by ring
      have p1 : 0 ≤ u * u * (A ^ 2 - t ^ 2 + 30 * u * D ^ 2) := mul_nonneg (mul_self_nonneg u) (by linarith)
      have p2 : u * (A ^ 2 - t ^ 2) ≤ u * D ^ 2 := mul_le_mul_of_nonneg_left (by linarith [sq_nonneg t]) hu0
      rw [e]
      linarith
    linarith

/-- A corner that is clearly within the radius is noticed. -/
theorem corner_hit (h : RelErr u rnd) (hu : u ≤ 1e-11) {v p : Vec3} {D R : ℝ} (hD : distSq v p ≤ D ^ 2)
    (hR : distSq v p + 10 * u * D ^ 2 < R ^ 2) : Rounded.length2 rnd (Rounded.sub rnd v p) < rnd (R * R) := by
  have hu0 := Rounded.relErr_nonneg h
  have h1 := (abs_le.1 (length2_sub_err h (by linarith) v p)).2
  rw [length2_sub] at h1
  have h2 := rnd_ge h (x := R * R) (mul_self_nonneg R)
  have h3 : 0 ≤ distSq v p := by unfold distSq; positivity
  have h4 : (1 - u) * (distSq v p + 10 * u * D ^ 2) < (1 - u) * (R * R) :=
    mul_lt_mul_of_pos_left (by linarith) (by linarith)
  have h5 : u * distSq v p ≤ u * D ^ 2 := mul_le_mul_of_nonneg_left hD hu0
  have h6 : u * (u * D ^ 2) ≤ 1e-11 * (u * D ^ 2) := mul_le_mul_of_nonneg_right hu (by positivity)
  have : 0 ≤ u * D ^ 2 := by positivity
  linarith

/-- Completeness of the edge test together with the two corner tests. -/
theorem edge_complete (h : RelErr u rnd) (hu : u ≤ 1e-11) {p a b : Vec3} {D R s : ℝ} (s0 : 0 ≤ s) (s1 : s ≤ 1)
    (ha : distSq a p ≤ D ^ 2) (hb : distSq b p ≤ D ^ 2) (hD : 0 ≤ D)
    (hh : distSq p ⟨(1 - s) * a.x + s * b.x, (1 - s) * a.y + s * b.y, (1 - s) * a.z + s * b.z⟩ + 40 * u * D ^ 2 < R ^ 2) :
    Rounded.length2 rnd (Rounded.sub rnd a p) < rnd (R * R) ∨ Rounded.length2 rnd (Rounded.sub rnd b p) < rnd (R * R) ∨
      Rounded.checkLinesegment rnd p (rnd (R * R)) a (Rounded.sub rnd b a) = true := by
  have hu0 := Rounded.relErr_nonneg h
  have hu1 : u ≤ 1 / 1000 := by linarith
  have hu1' : u ≤ 0.001 := by linarith
  have hD2 : 0 ≤ u * D ^ 2 := by positivity
  have CA : distSq a p + 10 * u * D ^ 2 < R ^ 2 → _ := corner_hit h hu ha
  have CB : distSq b p + 10 * u * D ^ 2 < R ^ 2 → _ := corner_hit h hu hb
  obtain ⟨L, hLd⟩ : ∃ L, L = (b - a).length := ⟨_, rfl⟩
  obtain ⟨A, hAd⟩ : ∃ A, A = (p - a).length := ⟨_, rfl⟩
  have hL0 : 0 ≤ L := by rw [hLd]; exact length_nonneg _
  have hA0 : 0 ≤ A := by rw [hAd]; exact length_nonneg _
  have hL2 : L ^ 2 = (b - a).length2 := by rw [hLd, length_sq]
  have hA2 : A ^ 2 = (p - a).length2 := by rw [hAd, length_sq]
  have eA : distSq a p = A ^ 2 := by rw [hA2, length2_sub, distSq_comm']
  have hAD : A ≤ D := by
    rw [eA] at ha
    exact (sq_le_sq₀ hA0 hD).1 ha
  obtain ⟨k, hk⟩ : ∃ k, k = (b - a).dot (p - a) := ⟨_, rfl⟩
  have ey : distSq p ⟨(1 - s) * a.x + s * b.x, (1 - s) * a.y + s * b.y, (1 - s) * a.z + s * b.z⟩ =
      A ^ 2 - 2 * s * k + s ^ 2 * L ^ 2 := by
    rw [hA2, hL2, hk]
    simp only [distSq, Vec3.dot, Vec3.length2, Vec3.sub_x, Vec3.sub_y, Vec3.sub_z]; ring
  have eb : distSq b p = A ^ 2 - 2 * k + L ^ 2 := by
    rw [hA2, hL2, hk]
    simp only [distSq, Vec3.dot, Vec3.length2, Vec3.sub_x, Vec3.sub_y, Vec3.sub_z]; ring
  rw [ey] at hh
  rw [eA] at CA
  rw [eb] at CB
  have hkLA : |k| ≤ L * A := by rw [hk, hLd, hAd]; exact abs_dot _ _
  rcases hL0.eq_or_lt with hz | hL
  · left
    apply CA
    rw [← hz] at hkLA hh
    have : k = 0 := by
      rw [zero_mul] at hkLA
      exact abs_nonpos_iff.1 hkLA
    rw [this] at hh
    linarith
  obtain ⟨t, ht⟩ : ∃ t, k = t * L := ⟨k / L, by field_simp⟩
  have htA : |t| ≤ A := by
    rw [ht, abs_mul, abs_of_pos hL, mul_comm] at hkLA
    exact le_of_mul_le_mul_left hkLA hL
  rw [ht] at hh CB
  have q1 : 0 ≤ (s * L - t) ^ 2 := sq_nonneg _
  have hsL : 0 ≤ s * L := mul_nonneg s0 hL0
  rcases lt_or_ge t 0 with htn | ht0
  · left
    apply CA
    have : 0 ≤ s * L * -t := mul_nonneg hsL (by linarith)
    have := sq_nonneg (s * L)
    linarith
  rcases lt_or_ge L t with htL | htL
  · right; left
    apply CB
    have e3 : 0 ≤ (1 - s) * L * (2 * t - L - s * L) := by
      refine mul_nonneg (mul_nonneg (by linarith) hL0) ?_
      have : s * L ≤ 1 * L := mul_le_mul_of_nonneg_right s1 hL0
      linarith
    have e4 : (1 - s) * L * (2 * t - L - s * L) = 2 * (t * L) - 2 * s * (t * L) - L ^ 2 + s ^ 2 * L ^ 2 := by ring
    linarith
  -- the foot is on the segment
  have hfoot : A ^ 2 - t ^ 2 + 40 * u * D ^ 2 < R ^ 2 := by
    have e : (s * L - t) ^ 2 = s ^ 2 * L ^ 2 - 2 * s * (t * L) + t ^ 2 := by ring
    linarith
  have hsubA := sub_err h p a
  have hsubL := sub_err h b a
  have hdd := dot_near h hu1 hsubL hsubA le_rfl le_rfl
  rw [← hLd, ← hAd, ← hk, ht] at hdd
  have hd1 := length2_sub_err h hu1 p a
  have hl2 := length2_sub_err h hu1 b a
  rw [← hA2] at hd1
  rw [← hL2] at hl2
  have hLA : 0 ≤ L * A := mul_nonneg hL0 hA0
  have uLA : 0 ≤ u * (L * A) := by positivity
  have uuLA : u * (u * (L * A)) ≤ 0.001 * (u * (L * A)) := mul_le_mul_of_nonneg_right (by linarith) uLA
  have uuuLA : u * (u * (u * (L * A))) ≤ 0.001 * (u * (L * A)) :=
    (mul_le_mul_of_nonneg_left uuLA hu0).trans (by
      have : u * (0.001 * (u * (L * A))) = 0.001 * (u * (u * (L * A))) := by ring
      rw [this]; linarith)
  have hd : |Rounded.dot rnd (Rounded.sub rnd b a) (Rounded.sub rnd p a) - t * L| ≤ 5.1 * u * (L * A) := by
    refine hdd.trans ?_
    have e : u * L * (A + u * A) + L * (u * A) + 3.01 * u * ((L + u * L) * (A + u * A)) =
      5.01 * (u * (L * A)) + 7.02 * (u * (u * (L * A))) + 3.01 * (u * (u * (u * (L * A)))) := by ring
    rw [e]; linarith
  unfold Rounded.checkLinesegment
  simp only
  generalize Rounded.dot rnd (Rounded.sub rnd b a) (Rounded.sub rnd p a) = d at *
  generalize Rounded.length2 rnd (Rounded.sub rnd p a) = d1 at *
  generalize Rounded.length2 rnd (Rounded.sub rnd b a) = l2 at *
  have hsmall : ∀ e, |e| ≤ 5.1 * u * A → e ^ 2 ≤ 26.1 * (u * (u * D ^ 2)) := by
    intro e he
    have h1 := pow_le_pow_left₀ (abs_nonneg e) he 2
    rw [sq_abs] at h1
    have h2 : A ^ 2 ≤ D ^ 2 := pow_le_pow_left₀ hA0 hAD 2
    have h3 : u * u * A ^ 2 ≤ u * u * D ^ 2 := mul_le_mul_of_nonneg_left h2 (mul_self_nonneg u)
    have : 0 ≤ u * u * D ^ 2 := by positivity
    linarith
  have huu : u * (u * D ^ 2) ≤ 0.001 * (u * D ^ 2) := mul_le_mul_of_nonneg_right hu1' hD2
  obtain ⟨hdt, -⟩ := proj_sq' h hu1 hL hl2 hA0 htA hd
  rcases lt_or_ge d 0 with hdn | hd0
  · -- the projection is computed as negative
    left
    apply CA
    have : |t| ≤ 5.1 * u * A := by
      rw [abs_of_nonneg ht0]
      have := (abs_le.1 hdt).1
      have : d / L < 0 := div_neg_of_neg_of_pos hdn hL
      linarith
    have := hsmall t this
    linarith
  rcases lt_or_ge L (d / L) with hdL | hdL
  · right; left
    apply CB
    have : |L - t| ≤ 5.1 * u * A := by
      rw [abs_of_nonneg (by linarith)]
      have := (abs_le.1 hdt).2
      linarith
    have := hsmall _ this
    have e : A ^ 2 - 2 * (t * L) + L ^ 2 = A ^ 2 - t ^ 2 + (L - t) ^ 2 := by ring
    rw [e]
    linarith
  right; right
  have hl0 : l2 ≠ 0 := by
    have h1 := (abs_le.1 hl2).1
    have h2 : u * L ^ 2 ≤ 0.001 * L ^ 2 := mul_le_mul_of_nonneg_right hu1' (sq_nonneg L)
    have : 0 < L ^ 2 := by positivity
    intro hz
    linarith
  rw [if_neg (not_lt.2 hd0), if_neg hl0, decide_eq_true_eq]
  exact edge_hit h hu hL hl2 hA0 hAD htA hd hd1 hd0 hdL (by linarith)

/-- A rim point that is clearly within the radius is noticed. -/
theorem rim_complete (h : RelErr u rnd) (hu : u ≤ 1e-11) {p v1 v2 v3 y : Vec3} {D R : ℝ} (hD : 0 ≤ D)
    (h1 : distSq v1 p ≤ D ^ 2) (h2 : distSq v2 p ≤ D ^ 2) (h3 : distSq v3 p ≤ D ^ 2) (hy : OnRim (v1, v2, v3) y)
    (hh : distSq p y + 40 * u * D ^ 2 < R ^ 2) : Rounded.sphereHitsTriangle rnd p (rnd (R * R)) v1 v2 v3 = true := by
  unfold Rounded.sphereHitsTriangle
  have key : Rounded.length2 rnd (Rounded.sub rnd v1 p) < rnd (R * R) ∨ Rounded.length2 rnd (Rounded.sub rnd v2 p) < rnd (R * R) ∨
      Rounded.length2 rnd (Rounded.sub rnd v3 p) < rnd (R * R) ∨
      Rounded.checkLinesegment rnd p (rnd (R * R)) v1 (Rounded.sub rnd v2 v1) = true ∨
      Rounded.checkLinesegment rnd p (rnd (R * R)) v2 (Rounded.sub rnd v3 v2) = true ∨
      Rounded.checkLinesegment rnd p (rnd (R * R)) v3 (Rounded.sub rnd v1 v3) = true := by
    obtain ⟨a, b, c, ha, hb, hc, hs, hz, rfl⟩ := hy
    simp only at hh
    rcases hz with rfl | rfl | rfl
    · have := edge_complete h hu (p := p) (a := v2) (b := v3) (s := c) (R := R) hc (by linarith) h2 h3 hD (by
        rw [show 1 - c = b by linarith]; simpa using hh)
      rcases this with h | h | h <;> simp [h]
    · have := edge_complete h hu (p := p) (a := v3) (b := v1) (s := a) (R := R) ha (by linarith) h3 h1 hD (by
        rw [show 1 - a = c by linarith]; simpa [add_comm] using hh)
      rcases this with h | h | h <;> simp [h]
    · have := edge_complete h hu (p := p) (a := v1) (b := v2) (s := b) (R := R) hb (by linarith) h1 h2 hD (by
        rw [show 1 - b = a by linarith]; simpa using hh)
      rcases this with h | h | h <;> simp [h]
  rcases key with h | h | h | h | h | h <;> simp [h]

/-- Soundness of the corner test. -/
theorem corner_sound (h : RelErr u rnd) (hu : u ≤ 1e-11) {v p : Vec3} {D R : ℝ} (hD : distSq v p ≤ D ^ 2)
    (hh : Rounded.length2 rnd (Rounded.sub rnd v p) < rnd (R * R)) : distSq v p ≤ R ^ 2 * (1 + 1e-9) + 10 * u * D ^ 2 := by
  have hu0 := Rounded.relErr_nonneg h
  have h1 := (abs_le.1 (length2_sub_err h (by linarith) v p)).1
  rw [length2_sub] at h1
  have h2 := rnd_le h (x := R * R) (mul_self_nonneg R)
  have h3 : u * (R * R) ≤ 1e-11 * (R * R) := mul_le_mul_of_nonneg_right hu (mul_self_nonneg R)
  have h5 : u * distSq v p ≤ u * D ^ 2 := mul_le_mul_of_nonneg_left hD hu0
  have : 0 ≤ u * D ^ 2 := by positivity
  have := mul_self_nonneg R
  linarith

/-- Soundness of the edge test. -/
theorem edge_sound (h : RelErr u rnd) (hu : u ≤ 1e-11) {p a b : Vec3} {D R : ℝ} (ha : distSq a p ≤ D ^ 2) (hD : 0 ≤ D)
    (hh : Rounded.checkLinesegment rnd p (rnd (R * R)) a (Rounded.sub rnd b a) = true) :
    ∃ s, 0 ≤ s ∧ s ≤ 1 ∧ distSq p ⟨(1 - s) * a.x + s * b.x, (1 - s) * a.y + s * b.y, (1 - s) * a.z + s * b.z⟩ ≤
      R ^ 2 * (1 + 2e-9) + 1e-17 * distSq a b + 40 * u * D ^ 2 := by
  have hu0 := Rounded.relErr_nonneg h
  have hu1 : u ≤ 1 / 1000 := by linarith
  have hu1' : u ≤ 0.001 := by linarith
  have hD2 : 0 ≤ u * D ^ 2 := by positivity
  have hRR := sq_nonneg R
  obtain ⟨L, hLd⟩ : ∃ L, L = (b - a).length := ⟨_, rfl⟩
  obtain ⟨A, hAd⟩ : ∃ A, A = (p - a).length := ⟨_, rfl⟩
  have hL0 : 0 ≤ L := by rw [hLd]; exact length_nonneg _
  have hA0 : 0 ≤ A := by rw [hAd]; exact length_nonneg _
  have hL2 : L ^ 2 = (b - a).length2 := by rw [hLd, length_sq]
  have hA2 : A ^ 2 = (p - a).length2 := by rw [hAd, length_sq]
  have eA : distSq a p = A ^ 2 := by rw [hA2, length2_sub, distSq_comm']
  have eL : distSq a b = L ^ 2 := by rw [hL2, length2_sub, distSq_comm']
  have hAD : A ≤ D := by
    rw [eA] at ha
    exact (sq_le_sq₀ hA0 hD).1 ha
  have hA2D : A ^ 2 ≤ D ^ 2 := pow_le_pow_left₀ hA0 hAD 2
  obtain ⟨k, hk⟩ : ∃ k, k = (b - a).dot (p - a) := ⟨_, rfl⟩
  have ey : ∀ s : ℝ, distSq p ⟨(1 - s) * a.x + s * b.x, (1 - s) * a.y + s * b.y, (1 - s) * a.z + s * b.z⟩ =
      A ^ 2 - 2 * s * k + s ^ 2 * L ^ 2 := by
    intro s
    rw [hA2, hL2, hk]
    simp only [distSq, Vec3.dot, Vec3.length2, Vec3.sub_x, Vec3.sub_y, Vec3.sub_z]; ring
  simp only [ey, eL]
  have hkLA : |k| ≤ L * A := by rw [hk, hLd, hAd]; exact abs_dot _ _
  have hl2 := length2_sub_err h hu1 b a
  rw [← hL2] at hl2
  unfold Rounded.checkLinesegment at hh
  simp only at hh
  split_ifs at hh with c1 c2
  have hL : 0 < L := by
    refine lt_of_le_of_ne hL0 fun hz => c2 ?_
    rw [← hz] at hl2
    simpa using hl2
  obtain ⟨t, ht⟩ : ∃ t, k = t * L := ⟨k / L, by field_simp⟩
  have htA : |t| ≤ A := by
    rw [ht, abs_mul, abs_of_pos hL, mul_comm] at hkLA
    exact le_of_mul_le_mul_left hkLA hL
  have hsubA := sub_err h p a
  have hsubL := sub_err h b a
  have hdd := dot_near h hu1 hsubL hsubA le_rfl le_rfl
  rw [← hLd, ← hAd, ← hk, ht] at hdd
  have hd1 := length2_sub_err h hu1 p a
  rw [← hA2] at hd1
  have hLA : 0 ≤ L * A := mul_nonneg hL0 hA0
  have uLA : 0 ≤ u * (L * A) := by positivity
  have uuLA : u * (u * (L * A)) ≤ 0.001 * (u * (L * A)) := mul_le_mul_of_nonneg_right (by linarith) uLA
  have uuuLA : u * (u * (u * (L * A))) ≤ 0.001 * (u * (L * A)) :=
    (mul_le_mul_of_nonneg_left uuLA hu0).trans (by
      have : u * (0.001 * (u * (L * A))) = 0.001 * (u * (u * (L * A))) := by ring
      rw [this]; linarith)
  have hd : |Rounded.dot rnd (Rounded.sub rnd b a) (Rounded.sub rnd p a) - t * L| ≤ 5.1 * u * (L * A) := by
    refine hdd.trans ?_
    have e : u * L * (A + u * A) + L * (u * A) + 3.01 * u * ((L + u * L) * (A + u * A)) =
      5.01 * (u * (L * A)) + 7.02 * (u * (u * (L * A))) + 3.01 * (u * (u * (u * (L * A)))) := by ring
    rw [e]; linarith
  rw [decide_eq_true_eq] at hh
  generalize Rounded.dot rnd (Rounded.sub rnd b a) (Rounded.sub rnd p a) = d at *
  generalize Rounded.length2 rnd (Rounded.sub rnd p a) = d1 at *
  generalize Rounded.length2 rnd (Rounded.sub rnd b a) = l2 at *
  obtain ⟨hdt, hw⟩ := proj_sq' h hu1 hL hl2 hA0 htA hd
  have hw' := proj_sq h hu1 hL hl2 (d := d)
  obtain ⟨s1, s2⟩ := slack_bounds h hu
  generalize rnd (1 + rnd 1e-9) = σ at *
  generalize rnd (rnd (d * d) / l2) = w at *
  obtain ⟨g1, g2⟩ := hh
  rw [not_lt] at c1
  have hLL : 0 < L ^ 2 := by positivity
  have htt : t ^ 2 ≤ A ^ 2 := by
    rw [← sq_abs]; exact pow_le_pow_left₀ (abs_nonneg t) htA 2
  have uA : u * A ^ 2 ≤ u * D ^ 2 := mul_le_mul_of_nonneg_left hA2D hu0
  -- the distance from the line
  have B : A ^ 2 - t ^ 2 ≤ R ^ 2 * (1 + 1.2e-9) + 25 * u * D ^ 2 := by
    have e1 := round_abs h hu1 (x := A ^ 2 - t ^ 2) (x' := d1 - w) (S := A ^ 2) (k := 22.9) (by norm_num)
      (by rw [abs_of_nonneg (by linarith)]; linarith [sq_nonneg t]) (by
        rw [show d1 - w - (A ^ 2 - t ^ 2) = (d1 - A ^ 2) - (w - t ^ 2) by ring]
        refine (abs_sub _ _).trans ?_
        linarith)
    have e1 := (abs_le.1 e1).1
    have r1 := rnd_le h (x := R * R) (mul_self_nonneg R)
    have r0 := rnd_ge h (x := R * R) (mul_self_nonneg R)
    have r00 : 0 ≤ rnd (R * R) := le_trans (mul_nonneg (by linarith) (mul_self_nonneg R)) r0
    have r2 : rnd (R * R) * σ ≤ (1 + u) * (R * R) * (1 + 1.1e-9) := mul_le_mul r1 s2 (by linarith) (mul_nonneg (by linarith) (mul_self_nonneg R))
    have r3 := rnd_le h (x := rnd (R * R) * σ) (mul_nonneg r00 (by linarith))
    have r4 : (1 + u) * (rnd (R * R) * σ) ≤ (1 + 1e-11) * ((1 + 1e-11) * (R * R) * (1 + 1.1e-9)) := by
      refine mul_le_mul (by linarith) (r2.trans ?_) (mul_nonneg r00 (by linarith)) (by norm_num)
      refine mul_le_mul_of_nonneg_right (mul_le_mul_of_nonneg_right (by linarith) (mul_self_nonneg R)) (by norm_num)
    have : R * R = R ^ 2 := by ring
    rw [this] at r4
    rw [this] at g2 r3
    linarith
  -- the foot is not far beyond the end
  have hdL0 : 0 ≤ d / L := div_nonneg c1 hL0
  have C : d / L ≤ (1 + 0.65e-9) * L := by
    have e1 : (1 - 7.3e-11) * (d / L) ^ 2 ≤ w := by
      have := (abs_le.1 hw').1
      have : u * (d / L) ^ 2 ≤ 1e-11 * (d / L) ^ 2 := mul_le_mul_of_nonneg_right hu (sq_nonneg _)
      linarith
    have e2 : l2 ≤ (1 + 5.1e-11) * L ^ 2 := by
      have := (abs_le.1 hl2).2
      have : u * L ^ 2 ≤ 1e-11 * L ^ 2 := mul_le_mul_of_nonneg_right hu hLL.le
      linarith
    have e20 : 0 ≤ l2 := by
      have := (abs_le.1 hl2).1
      have : u * L ^ 2 ≤ 1e-11 * L ^ 2 := mul_le_mul_of_nonneg_right hu hLL.le
      linarith
    have e3 : l2 * σ ≤ (1 + 5.1e-11) * L ^ 2 * (1 + 1.1e-9) := mul_le_mul e2 s2 (by linarith) (by positivity)
    have e4 := rnd_le h (x := l2 * σ) (mul_nonneg e20 (by linarith))
    have e5 : (1 + u) * (l2 * σ) ≤ (1 + 1e-11) * ((1 + 5.1e-11) * L ^ 2 * (1 + 1.1e-9)) :=
      mul_le_mul (by linarith) e3 (mul_nonneg e20 (by linarith)) (by norm_num)
    refine le_of_sq_le_sq ?_ (by positivity)
    rw [mul_pow]
    linarith
  have hsmall : ∀ e, |e| ≤ 5.1 * u * A → e ^ 2 ≤ 0.1 * (u * D ^ 2) := by
    intro e he
    have h1 := pow_le_pow_left₀ (abs_nonneg e) he 2
    rw [sq_abs] at h1
    have h3 : u * u * A ^ 2 ≤ u * u * D ^ 2 := mul_le_mul_of_nonneg_left hA2D (mul_self_nonneg u)
    have h4 : u * (u * D ^ 2) ≤ 0.001 * (u * D ^ 2) := mul_le_mul_of_nonneg_right hu1' hD2
    linarith
  have hdt1 := (abs_le.1 hdt).1
  have hdt2 := (abs_le.1 hdt).2
  rw [ht]
  rcases lt_or_ge t 0 with htn | ht0
  · refine ⟨0, le_rfl, by norm_num, ?_⟩
    have := hsmall t (by rw [abs_of_neg htn]; linarith)
    linarith
  rcases lt_or_ge L t with htL | htL
  · refine ⟨1, by norm_num, le_rfl, ?_⟩
    have e : (t - L) ^ 2 ≤ 2 * (0.65e-9 * L) ^ 2 + 2 * (5.1 * u * A) ^ 2 := by
      have h1 : t - L ≤ 0.65e-9 * L + 5.1 * u * A := by linarith
      have h2 := pow_le_pow_left₀ (by linarith) h1 2
      have h3 := sq_nonneg (0.65e-9 * L - 5.1 * u * A)
      linarith
    have := hsmall (5.1 * u * A) (by rw [abs_of_nonneg (by positivity)])
    linarith
  · refine ⟨t / L, by positivity, by rw [div_le_one hL]; exact htL, ?_⟩
    have e : A ^ 2 - 2 * (t / L) * (t * L) + (t / L) ^ 2 * L ^ 2 = A ^ 2 - t ^ 2 := by field_simp; ring
    rw [e]
    linarith

end Geo.RoundedSphere
