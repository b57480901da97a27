import Verif.Lemmas.ClearCase
import Verif.Lemmas.HeightMapContains

/-!
# Probes in clear position for concrete height maps
-/

namespace Geo.HeightMap

open Spec

/-- The line of a probe through a point of the line of an edge. -/
theorem vol4_meet {p q u v : Vec3} {s k : ℝ} (h : lerp p q s = lerp u v k) : vol4 p q u v = 0 := by
  simp only [lerp, Vec3.mk.injEq] at h
  obtain ⟨k1, k2, k3⟩ := h
  rw [vol4_eq]
  have x1 : p.x = u.x + k * (v.x - u.x) - s * (q.x - p.x) := by linarith
  have x2 : p.y = u.y + k * (v.y - u.y) - s * (q.y - p.y) := by linarith
  have x3 : p.z = u.z + k * (v.z - u.z) - s * (q.z - p.z) := by linarith
  generalize q.x - p.x = ux at *
  generalize q.y - p.y = uy at *
  generalize q.z - p.z = uz at *
  rw [x1, x2, x3]
  ring

/-- The probe passes the edge: not in a common plane with it, or the edge is on the x axis before the end of the probe.
(Device of the proofs.) -/
def Passes (p q u v : Vec3) : Prop :=
  1 / 10 ^ 6 < vol4 p q u v ^ 2 ∨ ((u.y = 0 ∧ u.z = 0 ∧ v.y = 0 ∧ v.z = 0) ∧ u.x < q.x ∧ v.x < q.x)

theorem Passes.ne {p q u v : Vec3} (hp : 0 < p.y) (hq : q.y = 0) (h : Passes p q u v) {s k : ℝ} (k0 : 0 ≤ k)
    (k1 : k ≤ 1) : lerp p q s ≠ lerp u v k := by
  intro e
  rcases h with h | ⟨⟨h1, h2, h3, h4⟩, h5, h6⟩
  · rw [vol4_meet e] at h; norm_num at h
  · simp only [lerp, Vec3.mk.injEq] at e
    obtain ⟨e1, e2, e3⟩ := e
    rw [h1, h3, hq] at e2
    have hs : s = 1 := by
      have : (1 - s) * p.y = 0 := by linarith
      rcases mul_eq_zero.1 this with k | k <;> linarith
    rw [hs] at e1
    have : u.x + k * (v.x - u.x) = (1 - k) * u.x + k * v.x := by ring
    rcases k0.eq_or_lt with rfl | k0
    · linarith
    · have := mul_lt_mul_of_pos_left h6 k0
      have := mul_le_mul_of_nonneg_left h5.le (sub_nonneg.2 k1)
      linarith

theorem Passes.tolerance {p q u v : Vec3} (hq : q.y = 0 ∧ q.z = 0) (h : Passes p q u v) :
    vol4 p q u v = 0 ∨ 1e-16 < |vol4 p q u v| := by
  rcases h with h | ⟨⟨h1, h2, h3, h4⟩, -⟩
  · right
    have : (1:ℝ) / 1000 < |vol4 p q u v| := by
      rw [← sq_abs] at h
      by_contra hn
      rw [not_lt] at hn
      have := mul_self_le_mul_self (abs_nonneg (vol4 p q u v)) hn
      nlinarith
    norm_num at *; linarith
  · left
    rw [vol4_eq, h1, h2, h3, h4, hq.1, hq.2]
    ring

theorem misses_of_passes {p q v1 v2 v3 : Vec3} (hp : 0 < p.y) (hq : q.y = 0) (h12 : Passes p q v1 v2) (h23 : Passes p q v2 v3)
    (h31 : Passes p q v3 v1) : MissesEdges p q (v1, v2, v3) := by
  rintro s - - ⟨a, b, c, ha, hb, hc, hs, hz, e⟩
  simp only at e
  rcases hz with rfl | rfl | rfl
  · obtain rfl : b = 1 - c := by linarith
    exact h23.ne hp hq hc (by linarith) (e.trans (by simp only [lerp]; ext <;> simp only <;> ring))
  · obtain rfl : c = 1 - a := by linarith
    exact h31.ne hp hq ha (by linarith) (e.trans (by simp only [lerp]; ext <;> simp only <;> ring))
  · obtain rfl : a = 1 - b := by linarith
    exact h12.ne hp hq hb (by linarith) (e.trans (by simp only [lerp]; ext <;> simp only <;> ring))

/-- Rational bounds that make a probe clear of a triangle. -/
theorem probe_case {p q v1 v2 v3 : Vec3} (a b c d e1 e2 e3 f1 f2 f3 : ℝ) (hp : 0 < p.y) (hq : q.y = 0 ∧ q.z = 0)
    (h12 : Passes p q v1 v2) (h23 : Passes p q v2 v3) (h31 : Passes p q v3 v1)
    (ht : vol4 p q v1 v2 ≠ 0 ∨ vol4 p q v2 v3 ≠ 0)
    (hs : side (v1, v2, v3) p * side (v1, v2, v3) q ≤ 0 ∨
      1 / 10 ^ 6 < side (v1, v2, v3) p * side (v1, v2, v3) q)
    (hf : (0 ≤ a ∧ 0 ≤ b ∧ 0 ≤ c ∧ 0 ≤ d ∧ d + 1 / 1000 ≤ a + b + c) ∧
      a ^ 2 ≤ area4 v2 p v3 ∧ b ^ 2 ≤ area4 p v1 v3 ∧ c ^ 2 ≤ area4 p v1 v2 ∧ area4 v1 v2 v3 ≤ d ^ 2)
    (he : (0 ≤ e1 ∧ 0 ≤ e2 ∧ 0 ≤ e3 ∧ 0 ≤ f1 ∧ 0 ≤ f2 ∧ 0 ≤ f3 ∧ f1 + 1 / 1000 ≤ e1 + e2 ∧
      f2 + 1 / 1000 ≤ e2 + e3 ∧ f3 + 1 / 1000 ≤ e3 + e1) ∧
      e1 ^ 2 ≤ distSq p v1 ∧ e2 ^ 2 ≤ distSq p v2 ∧ e3 ^ 2 ≤ distSq p v3 ∧
      distSq v2 v1 ≤ f1 ^ 2 ∧ distSq v3 v2 ≤ f2 ^ 2 ∧ distSq v1 v3 ≤ f3 ^ 2) :
    Clear p q (v1, v2, v3) ∧ MissesEdges p q (v1, v2, v3) := by
  have dc : ∀ x y : Vec3, Spec.dist x y = Real.sqrt (distSq x y) := fun _ _ => rfl
  have ds : ∀ x y : Vec3, distSq x y = distSq y x := by intro x y; simp only [distSq]; ring
  refine ⟨⟨?_, ?_, ?_, ?_, ?_⟩, misses_of_passes hp hq.1 h12 h23 h31⟩
  · intro e he
    simp only [rim, List.mem_cons, List.not_mem_nil, or_false] at he
    rcases he with rfl | rfl | rfl
    · exact h12.tolerance hq
    · exact h23.tolerance hq
    · exact h31.tolerance hq
  · rcases ht with h | h
    · exact ⟨(v1, v2), by simp [rim], h⟩
    · exact ⟨(v2, v3), by simp [rim], h⟩
  · rcases hs with h | h
    · exact .inl h
    · right; norm_num at *; linarith
  · obtain ⟨⟨ha, hb, hc, hd, hsum⟩, h1, h2, h3, h4⟩ := hf
    simp only [heron_area4]
    have k1 := Real.le_sqrt_of_sq_le h1
    have k2 := Real.le_sqrt_of_sq_le h2
    have k3 := Real.le_sqrt_of_sq_le h3
    have k4 := Real.sqrt_le_left hd |>.2 h4
    rw [le_abs]; left
    norm_num at *
    linarith
  · obtain ⟨⟨g1, g2, g3, g4, g5, g6, s1, s2, s3⟩, h1, h2, h3, h4, h5, h6⟩ := he
    have k1 := Real.le_sqrt_of_sq_le h1
    have k2 := Real.le_sqrt_of_sq_le h2
    have k3 := Real.le_sqrt_of_sq_le h3
    have k4 := Real.sqrt_le_left g4 |>.2 h4
    have k5 := Real.sqrt_le_left g5 |>.2 h5
    have k6 := Real.sqrt_le_left g6 |>.2 h6
    intro e he
    simp only [rim, List.mem_cons, List.not_mem_nil, or_false] at he
    rcases he with rfl | rfl | rfl <;> simp only [dc] <;> rw [lt_abs] <;> left
    · rw [ds v2 p]; norm_num at *; linarith
    · rw [ds v3 p]; norm_num at *; linarith
    · rw [ds v1 p]; norm_num at *; linarith

/-! ## Concrete grids -/

/-- The faces that can occur for the grid of `C104_notch_wrong`. (Device of the proofs.) -/
noncomputable def notchFaces : List Face :=
  [Face.top 0 1 2 2 1,
   Face.top 0 2 2 3 (9 / 4),
   Face.top 1 0 2 2 1,
   Face.top 1 1 2 2 1,
   Face.top 1 2 2 3 (9 / 4),
   Face.wallX 0 1 2 1 0,
   Face.wallX 0 2 3 (9 / 4) 0,
   Face.wallX 1 0 1 1 0,
   Face.wallX 2 0 1 0 1,
   Face.wallX 2 0 2 0 1,
   Face.wallX 2 1 2 0 1,
   Face.wallX 2 2 3 0 (9 / 4),
   Face.wallY 0 1 2 1 0,
   Face.wallY 1 0 1 1 0,
   Face.wallY 2 0 1 (9 / 4) 1,
   Face.wallY 2 0 2 (9 / 4) 1,
   Face.wallY 2 1 2 (9 / 4) 1,
   Face.wallY 3 0 1 0 (9 / 4),
   Face.wallY 3 0 2 0 (9 / 4),
   Face.wallY 3 1 2 0 (9 / 4)]

theorem notch_tops {f : Face} (h : GoodTop [[0, 1, 9 / 4], [1, 1, 9 / 4]] 2 3 f) : f ∈ notchFaces := by
  cases f with
  | wallX => exact h.elim
  | wallY => exact h.elim
  | top x0 y0 x1 y1 z =>
    obtain ⟨b1, b2, b3, b4, rfl, b6, b7, b8, b9⟩ := h
    interval_cases x1 <;> interval_cases x0 <;> interval_cases y1 <;> interval_cases y0
    all_goals
      first
      | (simp only [notchFaces, height, List.mem_cons, Face.top.injEq]; norm_num; done)
      | (exfalso; norm_num [height] at b6; done)
      | (exfalso; norm_num [height] at b9; done)
      | (exfalso; rcases b8 with b8 | ⟨y, y1, y2, y3⟩
         · omega
         · interval_cases y <;> norm_num [height, abs_of_pos, abs_of_neg] at y3
         done)
      | (exfalso; have q := b7 0 0; norm_num [height, abs_of_pos, abs_of_neg] at q; done)
      | (exfalso; have q := b7 0 1; norm_num [height, abs_of_pos, abs_of_neg] at q; done)
      | (exfalso; have q := b7 0 2; norm_num [height, abs_of_pos, abs_of_neg] at q; done)
      | (exfalso; have q := b7 1 0; norm_num [height, abs_of_pos, abs_of_neg] at q; done)
      | (exfalso; have q := b7 1 1; norm_num [height, abs_of_pos, abs_of_neg] at q; done)
      | (exfalso; have q := b7 1 2; norm_num [height, abs_of_pos, abs_of_neg] at q; done)

theorem notch_wallsX {f : Face} (h : WallXIn [[0, 1, 9 / 4], [1, 1, 9 / 4]] 2 3 f) (hw : ∀ x y, f.AtX x y → f.wallHeights =
      (height [[0, 1, 9 / 4], [1, 1, 9 / 4]] x y, heightLeft [[0, 1, 9 / 4], [1, 1, 9 / 4]] x y) ∧ height [[0, 1, 9 / 4], [1, 1, 9 / 4]] x y ≠ heightLeft [[0, 1, 9 / 4], [1, 1, 9 / 4]] x y) : f ∈ notchFaces := by
  cases f with
  | top => exact h.elim
  | wallY => exact h.elim
  | wallX x y0 y1 z z2 =>
    obtain ⟨b1, b2, b3, rfl, rfl⟩ := h
    have w0 := hw x y0 ⟨rfl, le_rfl, b2⟩
    have w1 := hw x (y1 - 1) ⟨rfl, by omega, by omega⟩
    interval_cases x <;> interval_cases y1 <;> interval_cases y0
    all_goals
      first
      | (simp only [notchFaces, height, heightLeft, List.mem_cons, Face.wallX.injEq]; norm_num; done)
      | (exfalso; norm_num [height, heightLeft] at w1; done)
      | (exfalso; norm_num [height, heightLeft, Face.wallHeights] at w0; done)

theorem notch_wallsY {f : Face} (h : WallYIn [[0, 1, 9 / 4], [1, 1, 9 / 4]] 2 3 f) (hw : ∀ x y, f.AtY x y → f.wallHeights =
      (height [[0, 1, 9 / 4], [1, 1, 9 / 4]] x y, heightBelow [[0, 1, 9 / 4], [1, 1, 9 / 4]] x y) ∧ height [[0, 1, 9 / 4], [1, 1, 9 / 4]] x y ≠ heightBelow [[0, 1, 9 / 4], [1, 1, 9 / 4]] x y) : f ∈ notchFaces := by
  cases f with
  | top => exact h.elim
  | wallX => exact h.elim
  | wallY y x0 x1 z z2 =>
    obtain ⟨b1, b2, b3, rfl, rfl⟩ := h
    have w0 := hw x0 y ⟨rfl, le_rfl, b2⟩
    have w1 := hw (x1 - 1) y ⟨rfl, by omega, by omega⟩
    interval_cases y <;> interval_cases x1 <;> interval_cases x0
    all_goals
      first
      | (simp only [notchFaces, height, heightBelow, List.mem_cons, Face.wallY.injEq]; norm_num; done)
      | (exfalso; norm_num [height, heightBelow] at w1; done)
      | (exfalso; norm_num [height, heightBelow, Face.wallHeights] at w0; done)

theorem notch_clear : ∀ f ∈ notchFaces, ∀ t ∈ f.tris 1,
    Clear ⟨1 / 2, 11 / 5, 13 / 10⟩ ⟨187 / 40, 0, 0⟩ t ∧ MissesEdges ⟨1 / 2, 11 / 5, 13 / 10⟩ ⟨187 / 40, 0, 0⟩ t := by
  simp only [notchFaces, Face.tris, List.mem_cons, List.not_mem_nil, or_false, forall_eq_or_imp, forall_eq, one_mul, Nat.cast_ofNat,
    Nat.cast_zero, Nat.cast_one]
  refine ⟨⟨?_, ?_⟩, ⟨?_, ?_⟩, ⟨?_, ?_⟩, ⟨?_, ?_⟩, ⟨?_, ?_⟩, ⟨?_, ?_⟩, ⟨?_, ?_⟩, ⟨?_, ?_⟩, ⟨?_, ?_⟩, ⟨?_, ?_⟩, ⟨?_, ?_⟩, ⟨?_, ?_⟩, ⟨?_, ?_⟩, ⟨?_, ?_⟩, ⟨?_, ?_⟩, ⟨?_, ?_⟩, ⟨?_, ?_⟩, ⟨?_, ?_⟩, ⟨?_, ?_⟩, ⟨?_, ?_⟩⟩
  · exact probe_case (1403 / 1250) (583 / 1000) (12369 / 5000) 2 (13341 / 10000) (9721 / 5000) (1541 / 2500) 2 (22361 / 10000) 1 (by norm_num) (by norm_num)
      (.inl (by simp only [vol4_eq]; norm_num)) (.inl (by simp only [vol4_eq]; norm_num))
      (.inl (by simp only [vol4_eq]; norm_num)) (.inl (by simp only [vol4_eq]; norm_num)) (.inl (by simp only [side]; norm_num))
      (by norm_num [area4]) (by norm_num [distSq])
  · exact probe_case (7211 / 10000) (1403 / 1250) (15297 / 10000) 2 (9721 / 5000) (15427 / 10000) (1541 / 2500) 1 2 (22361 / 10000) (by norm_num) (by norm_num)
      (.inl (by simp only [vol4_eq]; norm_num)) (.inl (by simp only [vol4_eq]; norm_num))
      (.inl (by simp only [vol4_eq]; norm_num)) (.inl (by simp only [vol4_eq]; norm_num)) (.inl (by simp only [side]; norm_num))
      (by norm_num [area4]) (by norm_num [distSq])
  · exact probe_case (23921 / 10000) (2147 / 2000) (2427 / 1250) 2 (273 / 250) (17867 / 10000) (3347 / 2500) 2 (22361 / 10000) 1 (by norm_num) (by norm_num)
      (.inl (by simp only [vol4_eq]; norm_num)) (.inl (by simp only [vol4_eq]; norm_num))
      (.inl (by simp only [vol4_eq]; norm_num)) (.inl (by simp only [vol4_eq]; norm_num)) (.inr (by simp only [side]; norm_num))
      (by norm_num [area4]) (by norm_num [distSq])
  · exact probe_case (24839 / 10000) (23921 / 10000) (3551 / 2000) 2 (17867 / 10000) (9737 / 5000) (3347 / 2500) 1 2 (22361 / 10000) (by norm_num) (by norm_num)
      (.inl (by simp only [vol4_eq]; norm_num)) (.inl (by simp only [vol4_eq]; norm_num))
      (.inl (by simp only [vol4_eq]; norm_num)) (.inl (by simp only [vol4_eq]; norm_num)) (.inr (by simp only [side]; norm_num))
      (by norm_num [area4]) (by norm_num [distSq])
  · exact probe_case (261 / 250) (11661 / 10000) (22203 / 10000) 2 (22759 / 10000) (5359 / 2000) (1541 / 2500) 1 (22361 / 10000) 2 (by norm_num) (by norm_num)
      (.inl (by simp only [vol4_eq]; norm_num)) (.inl (by simp only [vol4_eq]; norm_num))
      (.inl (by simp only [vol4_eq]; norm_num)) (.inl (by simp only [vol4_eq]; norm_num)) (.inl (by simp only [side]; norm_num))
      (by norm_num [area4]) (by norm_num [distSq])
  · exact probe_case (721 / 2000) (261 / 250) (15297 / 5000) 2 (5359 / 2000) (15427 / 10000) (1541 / 2500) 2 1 (22361 / 10000) (by norm_num) (by norm_num)
      (.inl (by simp only [vol4_eq]; norm_num)) (.inl (by simp only [vol4_eq]; norm_num))
      (.inl (by simp only [vol4_eq]; norm_num)) (.inl (by simp only [vol4_eq]; norm_num)) (.inl (by simp only [side]; norm_num))
      (by norm_num [area4]) (by norm_num [distSq])
  · exact probe_case (1299 / 2500) (583 / 1000) (12369 / 10000) 1 (13341 / 10000) (9721 / 5000) (1541 / 2500) 1 (14143 / 10000) 1 (by norm_num) (by norm_num)
      (.inl (by simp only [vol4_eq]; norm_num)) (.inl (by simp only [vol4_eq]; norm_num))
      (.inl (by simp only [vol4_eq]; norm_num)) (.inl (by simp only [vol4_eq]; norm_num)) (.inl (by simp only [side]; norm_num))
      (by norm_num [area4]) (by norm_num [distSq])
  · exact probe_case (721 / 2000) (1299 / 2500) (15297 / 10000) 1 (9721 / 5000) (15427 / 10000) (1541 / 2500) 1 1 (14143 / 10000) (by norm_num) (by norm_num)
      (.inl (by simp only [vol4_eq]; norm_num)) (.inl (by simp only [vol4_eq]; norm_num))
      (.inl (by simp only [vol4_eq]; norm_num)) (.inl (by simp only [vol4_eq]; norm_num)) (.inl (by simp only [side]; norm_num))
      (by norm_num [area4]) (by norm_num [distSq])
  · exact probe_case (9347 / 5000) (2147 / 2000) (2427 / 2500) 1 (273 / 250) (17867 / 10000) (3347 / 2500) 1 (14143 / 10000) 1 (by norm_num) (by norm_num)
      (.inl (by simp only [vol4_eq]; norm_num)) (.inl (by simp only [vol4_eq]; norm_num))
      (.inl (by simp only [vol4_eq]; norm_num)) (.inl (by simp only [vol4_eq]; norm_num)) (.inr (by simp only [side]; norm_num))
      (by norm_num [area4]) (by norm_num [distSq])
  · exact probe_case (12419 / 10000) (9347 / 5000) (3551 / 2000) 1 (17867 / 10000) (9737 / 5000) (3347 / 2500) 1 1 (14143 / 10000) (by norm_num) (by norm_num)
      (.inl (by simp only [vol4_eq]; norm_num)) (.inl (by simp only [vol4_eq]; norm_num))
      (.inl (by simp only [vol4_eq]; norm_num)) (.inl (by simp only [vol4_eq]; norm_num)) (.inr (by simp only [side]; norm_num))
      (by norm_num [area4]) (by norm_num [distSq])
  · exact probe_case (13 / 10) (583 / 1000) (7141 / 10000) 1 (1541 / 2500) (1149 / 625) (13341 / 10000) (14143 / 10000) 1 1 (by norm_num) (by norm_num)
      (.inl (by simp only [vol4_eq]; norm_num)) (.inl (by simp only [vol4_eq]; norm_num))
      (.inl (by simp only [vol4_eq]; norm_num)) (.inl (by simp only [vol4_eq]; norm_num)) (.inr (by simp only [side]; norm_num))
      (by norm_num [area4]) (by norm_num [distSq])
  · exact probe_case (1077 / 2000) (1741 / 1250) (7141 / 10000) 1 (1149 / 625) (1541 / 2500) (14071 / 10000) (14143 / 10000) 1 1 (by norm_num) (by norm_num)
      (.inl (by simp only [vol4_eq]; norm_num)) (.inl (by simp only [vol4_eq]; norm_num))
      (.inl (by simp only [vol4_eq]; norm_num)) (.inl (by simp only [vol4_eq]; norm_num)) (.inr (by simp only [side]; norm_num))
      (by norm_num [area4]) (by norm_num [distSq])
  · exact probe_case (3029 / 2500) (2147 / 2000) (187 / 125) (9 / 4) (3347 / 2500) (14071 / 10000) (273 / 250) (24623 / 10000) (9 / 4) 1 (by norm_num) (by norm_num)
      (.inl (by simp only [vol4_eq]; norm_num)) (.inl (by simp only [vol4_eq]; norm_num))
      (.inl (by simp only [vol4_eq]; norm_num)) (.inl (by simp only [vol4_eq]; norm_num)) (.inr (by simp only [side]; norm_num))
      (by norm_num [area4]) (by norm_num [distSq])
  · exact probe_case (10613 / 5000) (1741 / 1250) (187 / 125) (9 / 4) (14071 / 10000) (3347 / 2500) (8031 / 5000) (24623 / 10000) (9 / 4) 1 (by norm_num) (by norm_num)
      (.inl (by simp only [vol4_eq]; norm_num)) (.inl (by simp only [vol4_eq]; norm_num))
      (.inl (by simp only [vol4_eq]; norm_num)) (.inl (by simp only [vol4_eq]; norm_num)) (.inr (by simp only [side]; norm_num))
      (by norm_num [area4]) (by norm_num [distSq])
  · exact probe_case (22561 / 10000) (583 / 1000) (2289 / 2000) 1 (13341 / 10000) (13019 / 5000) (22759 / 10000) (14143 / 10000) 1 1 (by norm_num) (by norm_num)
      (.inl (by simp only [vol4_eq]; norm_num)) (.inl (by simp only [vol4_eq]; norm_num))
      (.inl (by simp only [vol4_eq]; norm_num)) (.inl (by simp only [vol4_eq]; norm_num)) (.inl (by simp only [side]; norm_num))
      (by norm_num [area4]) (by norm_num [distSq])
  · exact probe_case (13 / 10) (1741 / 1250) (2289 / 2000) 1 (13019 / 5000) (13341 / 10000) (1149 / 625) (14143 / 10000) 1 1 (by norm_num) (by norm_num)
      (.inl (by simp only [vol4_eq]; norm_num)) (.inl (by simp only [vol4_eq]; norm_num))
      (.inl (by simp only [vol4_eq]; norm_num)) (.inl (by simp only [vol4_eq]; norm_num)) (.inl (by simp only [side]; norm_num))
      (by norm_num [area4]) (by norm_num [distSq])
  · exact probe_case (26627 / 10000) (19849 / 10000) (32787 / 10000) 1 (11597 / 5000) (5359 / 2000) (29631 / 10000) (14143 / 10000) 1 1 (by norm_num) (by norm_num)
      (.inl (by simp only [vol4_eq]; norm_num)) (.inl (by simp only [vol4_eq]; norm_num))
      (.inl (by simp only [vol4_eq]; norm_num)) (.inl (by simp only [vol4_eq]; norm_num)) (.inl (by simp only [side]; norm_num))
      (by norm_num [area4]) (by norm_num [distSq])
  · exact probe_case (19209 / 10000) (15297 / 10000) (32787 / 10000) 1 (5359 / 2000) (11597 / 5000) (9721 / 5000) (14143 / 10000) 1 1 (by norm_num) (by norm_num)
      (.inl (by simp only [vol4_eq]; norm_num)) (.inl (by simp only [vol4_eq]; norm_num))
      (.inl (by simp only [vol4_eq]; norm_num)) (.inl (by simp only [vol4_eq]; norm_num)) (.inl (by simp only [side]; norm_num))
      (by norm_num [area4]) (by norm_num [distSq])
  · exact probe_case (26627 / 10000) (19849 / 5000) (10923 / 2500) 2 (19949 / 10000) (5359 / 2000) (29631 / 10000) (22361 / 10000) 1 2 (by norm_num) (by norm_num)
      (.inl (by simp only [vol4_eq]; norm_num)) (.inl (by simp only [vol4_eq]; norm_num))
      (.inl (by simp only [vol4_eq]; norm_num)) (.inl (by simp only [vol4_eq]; norm_num)) (.inl (by simp only [side]; norm_num))
      (by norm_num [area4]) (by norm_num [distSq])
  · exact probe_case (3783 / 2500) (15297 / 5000) (10923 / 2500) 2 (5359 / 2000) (19949 / 10000) (15427 / 10000) (22361 / 10000) 1 2 (by norm_num) (by norm_num)
      (.inl (by simp only [vol4_eq]; norm_num)) (.inl (by simp only [vol4_eq]; norm_num))
      (.inl (by simp only [vol4_eq]; norm_num)) (.inl (by simp only [vol4_eq]; norm_num)) (.inl (by simp only [side]; norm_num))
      (by norm_num [area4]) (by norm_num [distSq])
  · exact probe_case (19209 / 10000) (19849 / 10000) (1299 / 500) 1 (19949 / 10000) (9721 / 5000) (11597 / 5000) (14143 / 10000) 1 1 (by norm_num) (by norm_num)
      (.inl (by simp only [vol4_eq]; norm_num)) (.inl (by simp only [vol4_eq]; norm_num))
      (.inl (by simp only [vol4_eq]; norm_num)) (.inl (by simp only [vol4_eq]; norm_num)) (.inl (by simp only [side]; norm_num))
      (by norm_num [area4]) (by norm_num [distSq])
  · exact probe_case (3783 / 2500) (15297 / 10000) (1299 / 500) 1 (9721 / 5000) (19949 / 10000) (15427 / 10000) (14143 / 10000) 1 1 (by norm_num) (by norm_num)
      (.inl (by simp only [vol4_eq]; norm_num)) (.inl (by simp only [vol4_eq]; norm_num))
      (.inl (by simp only [vol4_eq]; norm_num)) (.inl (by simp only [vol4_eq]; norm_num)) (.inl (by simp only [side]; norm_num))
      (by norm_num [area4]) (by norm_num [distSq])
  · exact probe_case (2128 / 625) (19849 / 10000) (3727 / 1000) (9 / 4) (107 / 50) (17867 / 10000) (19949 / 10000) (24623 / 10000) (9 / 4) 1 (by norm_num) (by norm_num)
      (.inl (by simp only [vol4_eq]; norm_num)) (.inl (by simp only [vol4_eq]; norm_num))
      (.inl (by simp only [vol4_eq]; norm_num)) (.inl (by simp only [vol4_eq]; norm_num)) (.inl (by simp only [side]; norm_num))
      (by norm_num [area4]) (by norm_num [distSq])
  · exact probe_case (153 / 40) (3551 / 2000) (3727 / 1000) (9 / 4) (17867 / 10000) (107 / 50) (9737 / 5000) (24623 / 10000) (9 / 4) 1 (by norm_num) (by norm_num)
      (.inl (by simp only [vol4_eq]; norm_num)) (.inl (by simp only [vol4_eq]; norm_num))
      (.inl (by simp only [vol4_eq]; norm_num)) (.inl (by simp only [vol4_eq]; norm_num)) (.inl (by simp only [side]; norm_num))
      (by norm_num [area4]) (by norm_num [distSq])
  · exact probe_case (22203 / 10000) (22561 / 10000) (4493 / 1250) 1 (13019 / 5000) (5359 / 2000) (22759 / 10000) (14143 / 10000) 1 1 (by norm_num) (by norm_num)
      (.inl (by simp only [vol4_eq]; norm_num)) (.inl (by simp only [vol4_eq]; norm_num))
      (.inl (by simp only [vol4_eq]; norm_num)) (.inl (by simp only [vol4_eq]; norm_num)) (.inl (by simp only [side]; norm_num))
      (by norm_num [area4]) (by norm_num [distSq])
  · exact probe_case (25553 / 10000) (26627 / 10000) (4493 / 1250) 1 (5359 / 2000) (13019 / 5000) (29631 / 10000) (14143 / 10000) 1 1 (by norm_num) (by norm_num)
      (.inl (by simp only [vol4_eq]; norm_num)) (.inr (by norm_num))
      (.inl (by simp only [vol4_eq]; norm_num)) (.inl (by simp only [vol4_eq]; norm_num)) (.inl (by simp only [side]; norm_num))
      (by norm_num [area4]) (by norm_num [distSq])
  · exact probe_case (12369 / 10000) (13 / 10) (18761 / 10000) 1 (1149 / 625) (13341 / 10000) (13341 / 10000) (14143 / 10000) 1 1 (by norm_num) (by norm_num)
      (.inl (by simp only [vol4_eq]; norm_num)) (.inl (by simp only [vol4_eq]; norm_num))
      (.inl (by simp only [vol4_eq]; norm_num)) (.inl (by simp only [vol4_eq]; norm_num)) (.inl (by simp only [side]; norm_num))
      (by norm_num [area4]) (by norm_num [distSq])
  · exact probe_case (17691 / 10000) (13 / 10) (18761 / 10000) 1 (13341 / 10000) (1149 / 625) (1149 / 625) (14143 / 10000) 1 1 (by norm_num) (by norm_num)
      (.inl (by simp only [vol4_eq]; norm_num)) (.inl (by simp only [vol4_eq]; norm_num))
      (.inl (by simp only [vol4_eq]; norm_num)) (.inl (by simp only [vol4_eq]; norm_num)) (.inl (by simp only [side]; norm_num))
      (by norm_num [area4]) (by norm_num [distSq])
  · exact probe_case (2427 / 2500) (6731 / 10000) (2281 / 5000) (5 / 4) (1541 / 2500) (273 / 250) (273 / 250) (2001 / 1250) 1 (5 / 4) (by norm_num) (by norm_num)
      (.inl (by simp only [vol4_eq]; norm_num)) (.inl (by simp only [vol4_eq]; norm_num))
      (.inl (by simp only [vol4_eq]; norm_num)) (.inl (by simp only [vol4_eq]; norm_num)) (.inl (by simp only [side]; norm_num))
      (by norm_num [area4]) (by norm_num [distSq])
  · exact probe_case (721 / 2000) (6731 / 10000) (2281 / 5000) (5 / 4) (273 / 250) (1541 / 2500) (1541 / 2500) (2001 / 1250) 1 (5 / 4) (by norm_num) (by norm_num)
      (.inl (by simp only [vol4_eq]; norm_num)) (.inl (by simp only [vol4_eq]; norm_num))
      (.inl (by simp only [vol4_eq]; norm_num)) (.inl (by simp only [vol4_eq]; norm_num)) (.inl (by simp only [side]; norm_num))
      (by norm_num [area4]) (by norm_num [distSq])
  · exact probe_case (2427 / 1250) (6731 / 10000) (4723 / 10000) (5 / 2) (1541 / 2500) (17867 / 10000) (273 / 250) (4717 / 2000) 2 (5 / 4) (by norm_num) (by norm_num)
      (.inl (by simp only [vol4_eq]; norm_num)) (.inl (by simp only [vol4_eq]; norm_num))
      (.inl (by simp only [vol4_eq]; norm_num)) (.inl (by simp only [vol4_eq]; norm_num)) (.inl (by simp only [side]; norm_num))
      (by norm_num [area4]) (by norm_num [distSq])
  · exact probe_case (7211 / 10000) (3783 / 2000) (4723 / 10000) (5 / 2) (17867 / 10000) (1541 / 2500) (15427 / 10000) (4717 / 2000) 2 (5 / 4) (by norm_num) (by norm_num)
      (.inl (by simp only [vol4_eq]; norm_num)) (.inl (by simp only [vol4_eq]; norm_num))
      (.inl (by simp only [vol4_eq]; norm_num)) (.inl (by simp only [vol4_eq]; norm_num)) (.inl (by simp only [side]; norm_num))
      (by norm_num [area4]) (by norm_num [distSq])
  · exact probe_case (2427 / 2500) (6731 / 10000) (2447 / 2500) (5 / 4) (1541 / 2500) (17867 / 10000) (273 / 250) (2001 / 1250) 1 (5 / 4) (by norm_num) (by norm_num)
      (.inl (by simp only [vol4_eq]; norm_num)) (.inl (by simp only [vol4_eq]; norm_num))
      (.inl (by simp only [vol4_eq]; norm_num)) (.inl (by simp only [vol4_eq]; norm_num)) (.inl (by simp only [side]; norm_num))
      (by norm_num [area4]) (by norm_num [distSq])
  · exact probe_case (721 / 2000) (3783 / 2000) (2447 / 2500) (5 / 4) (17867 / 10000) (1541 / 2500) (15427 / 10000) (2001 / 1250) 1 (5 / 4) (by norm_num) (by norm_num)
      (.inl (by simp only [vol4_eq]; norm_num)) (.inl (by simp only [vol4_eq]; norm_num))
      (.inl (by simp only [vol4_eq]; norm_num)) (.inl (by simp only [vol4_eq]; norm_num)) (.inl (by simp only [side]; norm_num))
      (by norm_num [area4]) (by norm_num [distSq])
  · exact probe_case (954 / 625) (10613 / 5000) (791 / 400) (9 / 4) (3347 / 2500) (8031 / 5000) (8031 / 5000) (24623 / 10000) 1 (9 / 4) (by norm_num) (by norm_num)
      (.inl (by simp only [vol4_eq]; norm_num)) (.inl (by simp only [vol4_eq]; norm_num))
      (.inl (by simp only [vol4_eq]; norm_num)) (.inl (by simp only [vol4_eq]; norm_num)) (.inr (by simp only [side]; norm_num))
      (by norm_num [area4]) (by norm_num [distSq])
  · exact probe_case (12419 / 10000) (10613 / 5000) (791 / 400) (9 / 4) (8031 / 5000) (3347 / 2500) (3347 / 2500) (24623 / 10000) 1 (9 / 4) (by norm_num) (by norm_num)
      (.inl (by simp only [vol4_eq]; norm_num)) (.inl (by simp only [vol4_eq]; norm_num))
      (.inl (by simp only [vol4_eq]; norm_num)) (.inl (by simp only [vol4_eq]; norm_num)) (.inr (by simp only [side]; norm_num))
      (by norm_num [area4]) (by norm_num [distSq])
  · exact probe_case (1908 / 625) (10613 / 5000) (25299 / 10000) (9 / 2) (3347 / 2500) (107 / 50) (8031 / 5000) (3763 / 1250) 2 (9 / 4) (by norm_num) (by norm_num)
      (.inl (by simp only [vol4_eq]; norm_num)) (.inl (by simp only [vol4_eq]; norm_num))
      (.inl (by simp only [vol4_eq]; norm_num)) (.inl (by simp only [vol4_eq]; norm_num)) (.inr (by simp only [side]; norm_num))
      (by norm_num [area4]) (by norm_num [distSq])
  · exact probe_case (24839 / 10000) (153 / 40) (25299 / 10000) (9 / 2) (107 / 50) (3347 / 2500) (9737 / 5000) (3763 / 1250) 2 (9 / 4) (by norm_num) (by norm_num)
      (.inl (by simp only [vol4_eq]; norm_num)) (.inl (by simp only [vol4_eq]; norm_num))
      (.inl (by simp only [vol4_eq]; norm_num)) (.inl (by simp only [vol4_eq]; norm_num)) (.inr (by simp only [side]; norm_num))
      (by norm_num [area4]) (by norm_num [distSq])
  · exact probe_case (954 / 625) (10613 / 5000) (2861 / 1000) (9 / 4) (3347 / 2500) (107 / 50) (8031 / 5000) (24623 / 10000) 1 (9 / 4) (by norm_num) (by norm_num)
      (.inl (by simp only [vol4_eq]; norm_num)) (.inl (by simp only [vol4_eq]; norm_num))
      (.inl (by simp only [vol4_eq]; norm_num)) (.inl (by simp only [vol4_eq]; norm_num)) (.inr (by simp only [side]; norm_num))
      (by norm_num [area4]) (by norm_num [distSq])
  · exact probe_case (12419 / 10000) (153 / 40) (2861 / 1000) (9 / 4) (107 / 50) (3347 / 2500) (9737 / 5000) (24623 / 10000) 1 (9 / 4) (by norm_num) (by norm_num)
      (.inl (by simp only [vol4_eq]; norm_num)) (.inl (by simp only [vol4_eq]; norm_num))
      (.inl (by simp only [vol4_eq]; norm_num)) (.inl (by simp only [vol4_eq]; norm_num)) (.inr (by simp only [side]; norm_num))
      (by norm_num [area4]) (by norm_num [distSq])

/-- The faces that can occur for two cells of heights 1 and 2. (Device of the proofs.) -/
noncomputable def stepFaces : List Face :=
  [Face.top 0 0 1 1 1,
   Face.top 1 0 2 1 2,
   Face.wallX 0 0 1 1 0,
   Face.wallX 1 0 1 2 1,
   Face.wallX 2 0 1 0 2,
   Face.wallY 0 0 1 1 0,
   Face.wallY 0 1 2 2 0,
   Face.wallY 1 0 1 0 1,
   Face.wallY 1 1 2 0 2]

theorem step_tops {f : Face} (h : GoodTop [[1], [2]] 2 1 f) : f ∈ stepFaces := by
  cases f with
  | wallX => exact h.elim
  | wallY => exact h.elim
  | top x0 y0 x1 y1 z =>
    obtain ⟨b1, b2, b3, b4, rfl, b6, b7, b8, b9⟩ := h
    interval_cases x1 <;> interval_cases x0 <;> interval_cases y1 <;> interval_cases y0
    all_goals
      first
      | (simp only [stepFaces, height, List.mem_cons, Face.top.injEq]; norm_num; done)
      | (exfalso; norm_num [height] at b6; done)
      | (exfalso; norm_num [height] at b9; done)
      | (exfalso; rcases b8 with b8 | ⟨y, y1, y2, y3⟩
         · omega
         · interval_cases y <;> norm_num [height, abs_of_pos, abs_of_neg] at y3
         done)
      | (exfalso; have q := b7 0 0; norm_num [height, abs_of_pos, abs_of_neg] at q; done)
      | (exfalso; have q := b7 1 0; norm_num [height, abs_of_pos, abs_of_neg] at q; done)

theorem step_wallsX {f : Face} (h : WallXIn [[1], [2]] 2 1 f) (hw : ∀ x y, f.AtX x y → f.wallHeights =
      (height [[1], [2]] x y, heightLeft [[1], [2]] x y) ∧ height [[1], [2]] x y ≠ heightLeft [[1], [2]] x y) : f ∈ stepFaces := by
  cases f with
  | top => exact h.elim
  | wallY => exact h.elim
  | wallX x y0 y1 z z2 =>
    obtain ⟨b1, b2, b3, rfl, rfl⟩ := h
    have w0 := hw x y0 ⟨rfl, le_rfl, b2⟩
    have w1 := hw x (y1 - 1) ⟨rfl, by omega, by omega⟩
    interval_cases x <;> interval_cases y1 <;> interval_cases y0
    all_goals
      first
      | (simp only [stepFaces, height, heightLeft, List.mem_cons, Face.wallX.injEq]; norm_num; done)
      | (exfalso; norm_num [height, heightLeft] at w1; done)
      | (exfalso; norm_num [height, heightLeft, Face.wallHeights] at w0; done)

theorem step_wallsY {f : Face} (h : WallYIn [[1], [2]] 2 1 f) (hw : ∀ x y, f.AtY x y → f.wallHeights =
      (height [[1], [2]] x y, heightBelow [[1], [2]] x y) ∧ height [[1], [2]] x y ≠ heightBelow [[1], [2]] x y) : f ∈ stepFaces := by
  cases f with
  | top => exact h.elim
  | wallX => exact h.elim
  | wallY y x0 x1 z z2 =>
    obtain ⟨b1, b2, b3, rfl, rfl⟩ := h
    have w0 := hw x0 y ⟨rfl, le_rfl, b2⟩
    have w1 := hw (x1 - 1) y ⟨rfl, by omega, by omega⟩
    interval_cases y <;> interval_cases x1 <;> interval_cases x0
    all_goals
      first
      | (simp only [stepFaces, height, heightBelow, List.mem_cons, Face.wallY.injEq]; norm_num; done)
      | (exfalso; norm_num [height, heightBelow] at w1; done)
      | (exfalso; norm_num [height, heightBelow, Face.wallHeights] at w0; done)

theorem step_clear1 : ∀ f ∈ stepFaces, ∀ t ∈ f.tris 1,
    Clear ⟨3 / 10, 3 / 5, 2 / 5⟩ ⟨33 / 10, 0, 0⟩ t ∧ MissesEdges ⟨3 / 10, 3 / 5, 2 / 5⟩ ⟨33 / 10, 0, 0⟩ t := by
  simp only [stepFaces, Face.tris, List.mem_cons, List.not_mem_nil, or_false, forall_eq_or_imp, forall_eq, one_mul, Nat.cast_ofNat,
    Nat.cast_zero, Nat.cast_one]
  refine ⟨⟨?_, ?_⟩, ⟨?_, ?_⟩, ⟨?_, ?_⟩, ⟨?_, ?_⟩, ⟨?_, ?_⟩, ⟨?_, ?_⟩, ⟨?_, ?_⟩, ⟨?_, ?_⟩, ⟨?_, ?_⟩⟩
  · exact probe_case (534 / 625) (1677 / 2500) (1697 / 2000) 1 (9 / 10) (11 / 10) (781 / 1000) 1 (14143 / 10000) 1 (by norm_num) (by norm_num)
      (.inl (by simp only [vol4_eq]; norm_num)) (.inl (by simp only [vol4_eq]; norm_num))
      (.inl (by simp only [vol4_eq]; norm_num)) (.inl (by simp only [vol4_eq]; norm_num)) (.inr (by simp only [side]; norm_num))
      (by norm_num [area4]) (by norm_num [distSq])
  · exact probe_case (7211 / 10000) (534 / 625) (9219 / 10000) 1 (11 / 10) (10049 / 10000) (781 / 1000) 1 1 (14143 / 10000) (by norm_num) (by norm_num)
      (.inl (by simp only [vol4_eq]; norm_num)) (.inl (by simp only [vol4_eq]; norm_num))
      (.inl (by simp only [vol4_eq]; norm_num)) (.inl (by simp only [vol4_eq]; norm_num)) (.inr (by simp only [side]; norm_num))
      (by norm_num [area4]) (by norm_num [distSq])
  · exact probe_case (25159 / 10000) (2183 / 1250) (1068 / 625) 1 (9233 / 5000) (24103 / 10000) (4479 / 2500) 1 (14143 / 10000) 1 (by norm_num) (by norm_num)
      (.inl (by simp only [vol4_eq]; norm_num)) (.inl (by simp only [vol4_eq]; norm_num))
      (.inl (by simp only [vol4_eq]; norm_num)) (.inl (by simp only [vol4_eq]; norm_num)) (.inr (by simp only [side]; norm_num))
      (by norm_num [area4]) (by norm_num [distSq])
  · exact probe_case (4123 / 2500) (25159 / 10000) (4669 / 2000) 1 (24103 / 10000) (4737 / 2000) (4479 / 2500) 1 1 (14143 / 10000) (by norm_num) (by norm_num)
      (.inl (by simp only [vol4_eq]; norm_num)) (.inl (by simp only [vol4_eq]; norm_num))
      (.inl (by simp only [vol4_eq]; norm_num)) (.inl (by simp only [vol4_eq]; norm_num)) (.inr (by simp only [side]; norm_num))
      (by norm_num [area4]) (by norm_num [distSq])
  · exact probe_case (1677 / 2500) (1677 / 2500) (469 / 1000) 1 (781 / 1000) (781 / 1000) (9 / 10) (14143 / 10000) 1 1 (by norm_num) (by norm_num)
      (.inl (by simp only [vol4_eq]; norm_num)) (.inl (by simp only [vol4_eq]; norm_num))
      (.inl (by simp only [vol4_eq]; norm_num)) (.inl (by simp only [vol4_eq]; norm_num)) (.inr (by simp only [side]; norm_num))
      (by norm_num [area4]) (by norm_num [distSq])
  · exact probe_case (1 / 2) (1 / 2) (469 / 1000) 1 (781 / 1000) (781 / 1000) (6403 / 10000) (14143 / 10000) 1 1 (by norm_num) (by norm_num)
      (.inl (by simp only [vol4_eq]; norm_num)) (.inl (by simp only [vol4_eq]; norm_num))
      (.inl (by simp only [vol4_eq]; norm_num)) (.inl (by simp only [vol4_eq]; norm_num)) (.inr (by simp only [side]; norm_num))
      (by norm_num [area4]) (by norm_num [distSq])
  · exact probe_case (9219 / 10000) (2183 / 1250) (3889 / 2500) 1 (4479 / 2500) (11 / 10) (9233 / 5000) (14143 / 10000) 1 1 (by norm_num) (by norm_num)
      (.inl (by simp only [vol4_eq]; norm_num)) (.inl (by simp only [vol4_eq]; norm_num))
      (.inl (by simp only [vol4_eq]; norm_num)) (.inl (by simp only [vol4_eq]; norm_num)) (.inl (by simp only [side]; norm_num))
      (by norm_num [area4]) (by norm_num [distSq])
  · exact probe_case (4031 / 5000) (9219 / 10000) (3889 / 2500) 1 (11 / 10) (4479 / 2500) (10049 / 10000) (14143 / 10000) 1 1 (by norm_num) (by norm_num)
      (.inl (by simp only [vol4_eq]; norm_num)) (.inl (by simp only [vol4_eq]; norm_num))
      (.inl (by simp only [vol4_eq]; norm_num)) (.inl (by simp only [vol4_eq]; norm_num)) (.inl (by simp only [side]; norm_num))
      (by norm_num [area4]) (by norm_num [distSq])
  · exact probe_case (7211 / 2000) (2183 / 1250) (38223 / 10000) 2 (4479 / 2500) (24103 / 10000) (9233 / 5000) (22361 / 10000) 2 1 (by norm_num) (by norm_num)
      (.inl (by simp only [vol4_eq]; norm_num)) (.inl (by simp only [vol4_eq]; norm_num))
      (.inl (by simp only [vol4_eq]; norm_num)) (.inl (by simp only [vol4_eq]; norm_num)) (.inl (by simp only [side]; norm_num))
      (by norm_num [area4]) (by norm_num [distSq])
  · exact probe_case (2183 / 625) (4669 / 2000) (38223 / 10000) 2 (24103 / 10000) (4479 / 2500) (4737 / 2000) (22361 / 10000) 2 1 (by norm_num) (by norm_num)
      (.inl (by simp only [vol4_eq]; norm_num)) (.inl (by simp only [vol4_eq]; norm_num))
      (.inl (by simp only [vol4_eq]; norm_num)) (.inl (by simp only [vol4_eq]; norm_num)) (.inl (by simp only [side]; norm_num))
      (by norm_num [area4]) (by norm_num [distSq])
  · exact probe_case (1697 / 2000) (1677 / 2500) (534 / 625) 1 (781 / 1000) (11 / 10) (9 / 10) (14143 / 10000) 1 1 (by norm_num) (by norm_num)
      (.inl (by simp only [vol4_eq]; norm_num)) (.inl (by simp only [vol4_eq]; norm_num))
      (.inl (by simp only [vol4_eq]; norm_num)) (.inl (by simp only [vol4_eq]; norm_num)) (.inl (by simp only [side]; norm_num))
      (by norm_num [area4]) (by norm_num [distSq])
  · exact probe_case (7211 / 10000) (9219 / 10000) (534 / 625) 1 (11 / 10) (781 / 1000) (10049 / 10000) (14143 / 10000) 1 1 (by norm_num) (by norm_num)
      (.inl (by simp only [vol4_eq]; norm_num)) (.inr (by norm_num))
      (.inl (by simp only [vol4_eq]; norm_num)) (.inl (by simp only [vol4_eq]; norm_num)) (.inl (by simp only [side]; norm_num))
      (by norm_num [area4]) (by norm_num [distSq])
  · exact probe_case (1068 / 625) (18439 / 10000) (22449 / 10000) 2 (10049 / 10000) (24103 / 10000) (9233 / 5000) (22361 / 10000) 1 2 (by norm_num) (by norm_num)
      (.inl (by simp only [vol4_eq]; norm_num)) (.inl (by simp only [vol4_eq]; norm_num))
      (.inl (by simp only [vol4_eq]; norm_num)) (.inl (by simp only [vol4_eq]; norm_num)) (.inl (by simp only [side]; norm_num))
      (by norm_num [area4]) (by norm_num [distSq])
  · exact probe_case (7211 / 10000) (7211 / 2000) (22449 / 10000) 2 (24103 / 10000) (10049 / 10000) (9233 / 5000) (22361 / 10000) 1 2 (by norm_num) (by norm_num)
      (.inl (by simp only [vol4_eq]; norm_num)) (.inr (by norm_num))
      (.inl (by simp only [vol4_eq]; norm_num)) (.inl (by simp only [vol4_eq]; norm_num)) (.inl (by simp only [side]; norm_num))
      (by norm_num [area4]) (by norm_num [distSq])
  · exact probe_case (707 / 1250) (1 / 2) (6403 / 10000) 1 (781 / 1000) (9 / 10) (6403 / 10000) (14143 / 10000) 1 1 (by norm_num) (by norm_num)
      (.inl (by simp only [vol4_eq]; norm_num)) (.inl (by simp only [vol4_eq]; norm_num))
      (.inl (by simp only [vol4_eq]; norm_num)) (.inl (by simp only [vol4_eq]; norm_num)) (.inr (by simp only [side]; norm_num))
      (by norm_num [area4]) (by norm_num [distSq])
  · exact probe_case (7211 / 10000) (4031 / 5000) (6403 / 10000) 1 (9 / 10) (781 / 1000) (10049 / 10000) (14143 / 10000) 1 1 (by norm_num) (by norm_num)
      (.inl (by simp only [vol4_eq]; norm_num)) (.inl (by simp only [vol4_eq]; norm_num))
      (.inl (by simp only [vol4_eq]; norm_num)) (.inl (by simp only [vol4_eq]; norm_num)) (.inr (by simp only [side]; norm_num))
      (by norm_num [area4]) (by norm_num [distSq])
  · exact probe_case (707 / 1250) (4031 / 2500) (3913 / 1250) 2 (4479 / 2500) (4479 / 2500) (9 / 10) (22361 / 10000) 1 2 (by norm_num) (by norm_num)
      (.inl (by simp only [vol4_eq]; norm_num)) (.inl (by simp only [vol4_eq]; norm_num))
      (.inl (by simp only [vol4_eq]; norm_num)) (.inl (by simp only [vol4_eq]; norm_num)) (.inr (by simp only [side]; norm_num))
      (by norm_num [area4]) (by norm_num [distSq])
  · exact probe_case (4123 / 2500) (2183 / 625) (3913 / 1250) 2 (4479 / 2500) (4479 / 2500) (4737 / 2000) (22361 / 10000) 1 2 (by norm_num) (by norm_num)
      (.inl (by simp only [vol4_eq]; norm_num)) (.inl (by simp only [vol4_eq]; norm_num))
      (.inl (by simp only [vol4_eq]; norm_num)) (.inl (by simp only [vol4_eq]; norm_num)) (.inr (by simp only [side]; norm_num))
      (by norm_num [area4]) (by norm_num [distSq])

theorem step_clear2 : ∀ f ∈ stepFaces, ∀ t ∈ f.tris 1,
    Clear ⟨1 / 2, 1 / 2, 3 / 2⟩ ⟨33 / 10, 0, 0⟩ t ∧ MissesEdges ⟨1 / 2, 1 / 2, 3 / 2⟩ ⟨33 / 10, 0, 0⟩ t := by
  simp only [stepFaces, Face.tris, List.mem_cons, List.not_mem_nil, or_false, forall_eq_or_imp, forall_eq, one_mul, Nat.cast_ofNat,
    Nat.cast_zero, Nat.cast_one]
  refine ⟨⟨?_, ?_⟩, ⟨?_, ?_⟩, ⟨?_, ?_⟩, ⟨?_, ?_⟩, ⟨?_, ?_⟩, ⟨?_, ?_⟩, ⟨?_, ?_⟩, ⟨?_, ?_⟩, ⟨?_, ?_⟩⟩
  · exact probe_case (7071 / 10000) (7071 / 10000) (7071 / 10000) 1 (433 / 500) (433 / 500) (433 / 500) 1 (14143 / 10000) 1 (by norm_num) (by norm_num)
      (.inl (by simp only [vol4_eq]; norm_num)) (.inl (by simp only [vol4_eq]; norm_num))
      (.inl (by simp only [vol4_eq]; norm_num)) (.inl (by simp only [vol4_eq]; norm_num)) (.inl (by simp only [side]; norm_num))
      (by norm_num [area4]) (by norm_num [distSq])
  · exact probe_case (7071 / 10000) (7071 / 10000) (7071 / 10000) 1 (433 / 500) (433 / 500) (433 / 500) 1 1 (14143 / 10000) (by norm_num) (by norm_num)
      (.inl (by simp only [vol4_eq]; norm_num)) (.inl (by simp only [vol4_eq]; norm_num))
      (.inl (by simp only [vol4_eq]; norm_num)) (.inl (by simp only [vol4_eq]; norm_num)) (.inl (by simp only [side]; norm_num))
      (by norm_num [area4]) (by norm_num [distSq])
  · exact probe_case (12247 / 10000) (7071 / 10000) (7071 / 10000) 1 (433 / 500) (16583 / 10000) (433 / 500) 1 (14143 / 10000) 1 (by norm_num) (by norm_num)
      (.inl (by simp only [vol4_eq]; norm_num)) (.inl (by simp only [vol4_eq]; norm_num))
      (.inl (by simp only [vol4_eq]; norm_num)) (.inl (by simp only [vol4_eq]; norm_num)) (.inr (by simp only [side]; norm_num))
      (by norm_num [area4]) (by norm_num [distSq])
  · exact probe_case (7071 / 10000) (12247 / 10000) (15811 / 10000) 1 (16583 / 10000) (16583 / 10000) (433 / 500) 1 1 (14143 / 10000) (by norm_num) (by norm_num)
      (.inl (by simp only [vol4_eq]; norm_num)) (.inl (by simp only [vol4_eq]; norm_num))
      (.inl (by simp only [vol4_eq]; norm_num)) (.inl (by simp only [vol4_eq]; norm_num)) (.inr (by simp only [side]; norm_num))
      (by norm_num [area4]) (by norm_num [distSq])
  · exact probe_case (7071 / 10000) (7071 / 10000) (12247 / 10000) 1 (433 / 500) (16583 / 10000) (433 / 500) (14143 / 10000) 1 1 (by norm_num) (by norm_num)
      (.inl (by simp only [vol4_eq]; norm_num)) (.inl (by simp only [vol4_eq]; norm_num))
      (.inl (by simp only [vol4_eq]; norm_num)) (.inl (by simp only [vol4_eq]; norm_num)) (.inr (by simp only [side]; norm_num))
      (by norm_num [area4]) (by norm_num [distSq])
  · exact probe_case (7071 / 10000) (15811 / 10000) (12247 / 10000) 1 (16583 / 10000) (433 / 500) (16583 / 10000) (14143 / 10000) 1 1 (by norm_num) (by norm_num)
      (.inl (by simp only [vol4_eq]; norm_num)) (.inl (by simp only [vol4_eq]; norm_num))
      (.inl (by simp only [vol4_eq]; norm_num)) (.inl (by simp only [vol4_eq]; norm_num)) (.inr (by simp only [side]; norm_num))
      (by norm_num [area4]) (by norm_num [distSq])
  · exact probe_case (7071 / 10000) (7071 / 10000) (7071 / 10000) 1 (433 / 500) (433 / 500) (433 / 500) (14143 / 10000) 1 1 (by norm_num) (by norm_num)
      (.inl (by simp only [vol4_eq]; norm_num)) (.inl (by simp only [vol4_eq]; norm_num))
      (.inl (by simp only [vol4_eq]; norm_num)) (.inl (by simp only [vol4_eq]; norm_num)) (.inl (by simp only [side]; norm_num))
      (by norm_num [area4]) (by norm_num [distSq])
  · exact probe_case (7071 / 10000) (7071 / 10000) (7071 / 10000) 1 (433 / 500) (433 / 500) (433 / 500) (14143 / 10000) 1 1 (by norm_num) (by norm_num)
      (.inl (by simp only [vol4_eq]; norm_num)) (.inl (by simp only [vol4_eq]; norm_num))
      (.inl (by simp only [vol4_eq]; norm_num)) (.inl (by simp only [vol4_eq]; norm_num)) (.inl (by simp only [side]; norm_num))
      (by norm_num [area4]) (by norm_num [distSq])
  · exact probe_case (15811 / 5000) (21213 / 10000) (33911 / 10000) 2 (10897 / 5000) (16583 / 10000) (10897 / 5000) (22361 / 10000) 2 1 (by norm_num) (by norm_num)
      (.inl (by simp only [vol4_eq]; norm_num)) (.inl (by simp only [vol4_eq]; norm_num))
      (.inl (by simp only [vol4_eq]; norm_num)) (.inl (by simp only [vol4_eq]; norm_num)) (.inl (by simp only [side]; norm_num))
      (by norm_num [area4]) (by norm_num [distSq])
  · exact probe_case (15811 / 5000) (15811 / 10000) (33911 / 10000) 2 (16583 / 10000) (10897 / 5000) (16583 / 10000) (22361 / 10000) 2 1 (by norm_num) (by norm_num)
      (.inl (by simp only [vol4_eq]; norm_num)) (.inl (by simp only [vol4_eq]; norm_num))
      (.inl (by simp only [vol4_eq]; norm_num)) (.inl (by simp only [vol4_eq]; norm_num)) (.inl (by simp only [side]; norm_num))
      (by norm_num [area4]) (by norm_num [distSq])
  · exact probe_case (7071 / 10000) (7071 / 10000) (12247 / 10000) 1 (16583 / 10000) (433 / 500) (433 / 500) (14143 / 10000) 1 1 (by norm_num) (by norm_num)
      (.inl (by simp only [vol4_eq]; norm_num)) (.inl (by simp only [vol4_eq]; norm_num))
      (.inl (by simp only [vol4_eq]; norm_num)) (.inl (by simp only [vol4_eq]; norm_num)) (.inl (by simp only [side]; norm_num))
      (by norm_num [area4]) (by norm_num [distSq])
  · exact probe_case (15811 / 10000) (7071 / 10000) (12247 / 10000) 1 (433 / 500) (16583 / 10000) (16583 / 10000) (14143 / 10000) 1 1 (by norm_num) (by norm_num)
      (.inl (by simp only [vol4_eq]; norm_num)) (.inr (by norm_num))
      (.inl (by simp only [vol4_eq]; norm_num)) (.inl (by simp only [vol4_eq]; norm_num)) (.inl (by simp only [side]; norm_num))
      (by norm_num [area4]) (by norm_num [distSq])
  · exact probe_case (7071 / 10000) (7071 / 5000) (13693 / 5000) 2 (16583 / 10000) (16583 / 10000) (433 / 500) (22361 / 10000) 1 2 (by norm_num) (by norm_num)
      (.inl (by simp only [vol4_eq]; norm_num)) (.inl (by simp only [vol4_eq]; norm_num))
      (.inl (by simp only [vol4_eq]; norm_num)) (.inl (by simp only [vol4_eq]; norm_num)) (.inl (by simp only [side]; norm_num))
      (by norm_num [area4]) (by norm_num [distSq])
  · exact probe_case (15811 / 10000) (15811 / 5000) (13693 / 5000) 2 (16583 / 10000) (16583 / 10000) (10897 / 5000) (22361 / 10000) 1 2 (by norm_num) (by norm_num)
      (.inl (by simp only [vol4_eq]; norm_num)) (.inr (by norm_num))
      (.inl (by simp only [vol4_eq]; norm_num)) (.inl (by simp only [vol4_eq]; norm_num)) (.inl (by simp only [side]; norm_num))
      (by norm_num [area4]) (by norm_num [distSq])
  · exact probe_case (15811 / 10000) (7071 / 10000) (12247 / 10000) 1 (433 / 500) (16583 / 10000) (16583 / 10000) (14143 / 10000) 1 1 (by norm_num) (by norm_num)
      (.inl (by simp only [vol4_eq]; norm_num)) (.inl (by simp only [vol4_eq]; norm_num))
      (.inl (by simp only [vol4_eq]; norm_num)) (.inl (by simp only [vol4_eq]; norm_num)) (.inr (by simp only [side]; norm_num))
      (by norm_num [area4]) (by norm_num [distSq])
  · exact probe_case (7071 / 10000) (7071 / 10000) (12247 / 10000) 1 (16583 / 10000) (433 / 500) (433 / 500) (14143 / 10000) 1 1 (by norm_num) (by norm_num)
      (.inl (by simp only [vol4_eq]; norm_num)) (.inl (by simp only [vol4_eq]; norm_num))
      (.inl (by simp only [vol4_eq]; norm_num)) (.inl (by simp only [vol4_eq]; norm_num)) (.inr (by simp only [side]; norm_num))
      (by norm_num [area4]) (by norm_num [distSq])
  · exact probe_case (15811 / 10000) (7071 / 5000) (4677 / 2500) 2 (433 / 500) (10897 / 5000) (16583 / 10000) (22361 / 10000) 1 2 (by norm_num) (by norm_num)
      (.inl (by simp only [vol4_eq]; norm_num)) (.inl (by simp only [vol4_eq]; norm_num))
      (.inl (by simp only [vol4_eq]; norm_num)) (.inl (by simp only [vol4_eq]; norm_num)) (.inr (by simp only [side]; norm_num))
      (by norm_num [area4]) (by norm_num [distSq])
  · exact probe_case (7071 / 10000) (15811 / 5000) (4677 / 2500) 2 (10897 / 5000) (433 / 500) (16583 / 10000) (22361 / 10000) 1 2 (by norm_num) (by norm_num)
      (.inl (by simp only [vol4_eq]; norm_num)) (.inl (by simp only [vol4_eq]; norm_num))
      (.inl (by simp only [vol4_eq]; norm_num)) (.inl (by simp only [vol4_eq]; norm_num)) (.inr (by simp only [side]; norm_num))
      (by norm_num [area4]) (by norm_num [distSq])

end Geo.HeightMap
