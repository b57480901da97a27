import Verif.Spec.Solids
import Verif.Lemmas.Shapes
import Verif.Lemmas.ClearCase

/-!
# Lemmas about the solids made of cylinders and prisms
-/

namespace Geo

open Spec

namespace Shapes

/-- The corners of a triangle of a prism. (Helper.) -/
noncomputable def corner3 (f : ℕ → Vec2) (h : ℝ) (t : TriI) : Vec3 × Vec3 × Vec3 :=
  (vertex f h t.i1, vertex f h t.i2, vertex f h t.i3)

theorem leftOf_zero (f : ℕ → Vec2) (n i : ℕ) : leftOf f n i (f i).x (f i).y = 0 := by
  unfold leftOf; ring

theorem leftOf_next (f : ℕ → Vec2) (n i : ℕ) : leftOf f n i (f ((i + 1) % n)).x (f ((i + 1) % n)).y = 0 := by
  unfold leftOf; ring

theorem strictly_convex {f : ℕ → Vec2} {n : ℕ} (hc : StrictlyConvex f n) : ConvexClockwise f n := by
  intro i hi k hk
  change leftOf f n i (f k).x (f k).y ≤ 0
  by_cases h1 : k = i
  · rw [h1, leftOf_zero]
  · by_cases h2 : k = (i + 1) % n
    · rw [h2, leftOf_next]
    · exact (hc.2 i hi k hk h1 h2).le

/-- The side of a point with regard to the triangles of the prism. -/
theorem bottom_side (f : ℕ → Vec2) (h : ℝ) (n : ℕ) {i : ℕ} (hi : i + 1 < n) (p : Vec3) :
    side (corner3 f h ⟨0, 2 * i, 2 * i + 2⟩) p = leftOf f n i (f 0).x (f 0).y * (p.z + h / 2) := by
  have a := vertex_even f h 0
  have c := vertex_even f h (i + 1)
  rw [show 2 * (i + 1) = 2 * i + 2 by ring] at c
  simp only [corner3, c, vertex_even, show vertex f h 0 = _ from a, side, leftOf, Nat.mod_eq_of_lt hi]
  ring

theorem top_side (f : ℕ → Vec2) (h : ℝ) (n : ℕ) {i : ℕ} (hi : i + 1 < n) (p : Vec3) :
    side (corner3 f h ⟨1, 2 * i + 3, 2 * i + 1⟩) p = leftOf f n i (f 0).x (f 0).y * (h / 2 - p.z) := by
  have a := vertex_odd f h 0
  have c := vertex_odd f h (i + 1)
  rw [show 2 * (i + 1) + 1 = 2 * i + 3 by ring] at c
  simp only [corner3, c, vertex_odd, show vertex f h 1 = _ from a, side, leftOf, Nat.mod_eq_of_lt hi]
  ring

theorem wall_side (f : ℕ → Vec2) (h : ℝ) (n i : ℕ) (p : Vec3) :
    side (corner3 f h ⟨i * 2, i * 2 + 1, (i + 1) % n * 2⟩) p = h * leftOf f n i p.x p.y ∧
    side (corner3 f h ⟨i * 2 + 1, (i + 1) % n * 2 + 1, (i + 1) % n * 2⟩) p = h * leftOf f n i p.x p.y := by
  unfold leftOf
  generalize (i + 1) % n = j
  constructor <;> simp only [corner3, Nat.mul_comm _ 2, vertex_even, vertex_odd, side] <;> ring

theorem mem_prism {n : ℕ} {t : TriI} : t ∈ caps n ++ sides n ↔
    (∃ i, 1 ≤ i ∧ i + 1 < n ∧ (t = ⟨0, 2 * i, 2 * i + 2⟩ ∨ t = ⟨1, 2 * i + 3, 2 * i + 1⟩)) ∨
    ∃ i < n, t = ⟨i * 2, i * 2 + 1, (i + 1) % n * 2⟩ ∨ t = ⟨i * 2 + 1, (i + 1) % n * 2 + 1, (i + 1) % n * 2⟩ := by
  simp only [List.mem_append, caps, sides, List.mem_flatMap, List.mem_range'_1, List.mem_cons, List.not_mem_nil, or_false]
  constructor
  · rintro (⟨i, h, h'⟩ | ⟨i, h, h'⟩)
    · exact .inl ⟨i, by omega, by omega, h'⟩
    · exact .inr ⟨i, by omega, h'⟩
  · rintro (⟨i, h1, h2, h'⟩ | ⟨i, h, h'⟩)
    · exact .inl ⟨i, by omega, h'⟩
    · exact .inr ⟨i, by omega, h'⟩

theorem cap_strict {f : ℕ → Vec2} {n : ℕ} (hc : StrictlyConvex f n) {i : ℕ} (h1 : 1 ≤ i) (h2 : i + 1 < n) :
    leftOf f n i (f 0).x (f 0).y < 0 :=
  hc.2 i (by omega) 0 (by omega) (by omega) (by rw [Nat.mod_eq_of_lt h2]; omega)

theorem within_side {f : ℕ → Vec2} {n : ℕ} (hc : StrictlyConvex f n) {h : ℝ} (hh : 0 < h) {p : Vec3} (hp : Within f n h p) :
    ∀ t ∈ (caps n ++ sides n).map (corner3 f h), side t p < 0 := by
  intro t ht
  obtain ⟨u, hu, rfl⟩ := List.mem_map.1 ht
  obtain ⟨z1, z2, hw⟩ := hp
  rcases mem_prism.1 hu with ⟨i, a, b, rfl | rfl⟩ | ⟨i, a, rfl | rfl⟩
  · rw [bottom_side f h n b]
    exact mul_neg_of_neg_of_pos (cap_strict hc a b) (by linarith)
  · rw [top_side f h n b]
    exact mul_neg_of_neg_of_pos (cap_strict hc a b) (by linarith)
  · rw [(wall_side f h n i p).1]
    exact mul_neg_of_pos_of_neg hh (hw i a)
  · rw [(wall_side f h n i p).2]
    exact mul_neg_of_pos_of_neg hh (hw i a)

theorem beyond_side {f : ℕ → Vec2} {n : ℕ} (hc : StrictlyConvex f n) {h : ℝ} (hh : 0 < h) {p : Vec3} (hp : Beyond f n h p) :
    ∃ t ∈ (caps n ++ sides n).map (corner3 f h), 0 < side t p := by
  have h3 := hc.1
  rcases hp with hz | hz | ⟨i, hi, hl⟩
  · refine ⟨_, List.mem_map.2 ⟨⟨0, 2 * 1, 2 * 1 + 2⟩, mem_prism.2 (.inl ⟨1, by omega, by omega, .inl rfl⟩), rfl⟩, ?_⟩
    rw [bottom_side f h n (by omega)]
    exact mul_pos_of_neg_of_neg (cap_strict hc (by omega) (by omega)) (by linarith)
  · refine ⟨_, List.mem_map.2 ⟨⟨1, 2 * 1 + 3, 2 * 1 + 1⟩, mem_prism.2 (.inl ⟨1, by omega, by omega, .inr rfl⟩), rfl⟩, ?_⟩
    rw [top_side f h n (by omega)]
    exact mul_pos_of_neg_of_neg (cap_strict hc (by omega) (by omega)) (by linarith)
  · refine ⟨_, List.mem_map.2 ⟨_, mem_prism.2 (.inr ⟨i, hi, .inl rfl⟩), rfl⟩, ?_⟩
    rw [(wall_side f h n i p).1]
    exact mul_pos hh hl

theorem prism_convex {f : ℕ → Vec2} {n : ℕ} (hc : StrictlyConvex f n) {h : ℝ} (hh : 0 < h) :
    ConvexSoup ((caps n ++ sides n).map (corner3 f h)) := by
  intro t ht t' ht' v hv
  have hn : 2 ≤ n := le_trans (by omega) hc.1
  refine prism_outward f hn hh.le (strictly_convex hc) t ht v ?_
  exact soup_corner_mem (ring_soup f h (valid_prism hn)) t' ht' v hv

theorem prism_face {f : ℕ → Vec2} {n : ℕ} (hc : StrictlyConvex f n) {h : ℝ} (hh : 0 < h) :
    HasFace ((caps n ++ sides n).map (corner3 f h)) := by
  have h3 := hc.1
  have hcc := strictly_convex hc
  obtain ⟨k, rfl⟩ : ∃ k, n = k + 1 := ⟨n - 1, by omega⟩
  have e1 : (0 + 1) % (k + 1) = 1 := Nat.mod_eq_of_lt (by omega)
  have hsides : sides (k + 1) = ⟨0 * 2, 0 * 2 + 1, 1 * 2⟩ :: ⟨0 * 2 + 1, 1 * 2 + 1, 1 * 2⟩ ::
      (List.range' 1 k).flatMap fun i =>
        [⟨i * 2, i * 2 + 1, (i + 1) % (k + 1) * 2⟩, ⟨i * 2 + 1, (i + 1) % (k + 1) * 2 + 1, (i + 1) % (k + 1) * 2⟩] := by
    unfold sides
    rw [Nat.sub_zero, List.range'_succ, List.flatMap_cons, e1]
    rfl
  refine ⟨(caps (k + 1)).map (corner3 f h), corner3 f h ⟨0 * 2, 0 * 2 + 1, 1 * 2⟩,
    (⟨0 * 2 + 1, 1 * 2 + 1, 1 * 2⟩ :: (List.range' 1 k).flatMap fun i =>
        [⟨i * 2, i * 2 + 1, (i + 1) % (k + 1) * 2⟩, ⟨i * 2 + 1, (i + 1) % (k + 1) * 2 + 1, (i + 1) % (k + 1) * 2⟩]).map
      (corner3 f h),
    ⟨(2 * (f 0).x + (f 1).x) / 3, (2 * (f 0).y + (f 1).y) / 3, -h / 6⟩, ?_, ?_, ?_⟩
  · rw [hsides, List.map_append, List.map_cons]
  · refine ⟨1 / 3, 1 / 3, 1 / 3, by norm_num, by norm_num, by norm_num, by norm_num, ?_⟩
    simp only [corner3, Nat.mul_comm _ 2, vertex_even, vertex_odd]
    ext <;> simp only <;> ring
  · intro t' ht'
    rw [List.mem_append] at ht'
    rcases ht' with ht' | ht'
    · obtain ⟨u, hu, rfl⟩ := List.mem_map.1 ht'
      have hu' := mem_prism.1 (List.mem_append_left (sides (k + 1)) hu)
      simp only [caps, List.mem_flatMap, List.mem_range'_1, List.mem_cons, List.not_mem_nil, or_false] at hu
      obtain ⟨i, hi, rfl | rfl⟩ := hu
      · intro hin
        have hs := inTri_side hin
        rw [bottom_side f h (k + 1) (by omega)] at hs
        have := cap_strict hc (i := i) (by omega) (by omega)
        simp only at hs
        rcases mul_eq_zero.1 hs with h0 | h0 <;> linarith
      · intro hin
        have hs := inTri_side hin
        rw [top_side f h (k + 1) (by omega)] at hs
        have := cap_strict hc (i := i) (by omega) (by omega)
        simp only at hs
        rcases mul_eq_zero.1 hs with h0 | h0 <;> linarith
    · obtain ⟨u, hu, rfl⟩ := List.mem_map.1 ht'
      rw [List.mem_cons] at hu
      rcases hu with rfl | hu
      · rintro ⟨a, b, c, ha, hb, hc', hsum, he⟩
        simp only [corner3, Nat.mul_comm _ 2, vertex_even, vertex_odd, Vec3.mk.injEq] at he
        obtain ⟨ex, ey, ez⟩ := he
        have l2 := hc.2 0 (by omega) 2 (by omega) (by omega) (by rw [e1]; omega)
        unfold leftOf at l2
        rw [e1] at l2
        have e : (a - 2 / 3) * ((f 1).x - (f 0).x) = 0 := by
          have : c = 1 - a - b := by linarith
          rw [this] at ex; linarith
        have e' : (a - 2 / 3) * ((f 1).y - (f 0).y) = 0 := by
          have : c = 1 - a - b := by linarith
          rw [this] at ey; linarith
        have ha3 : a - 2 / 3 = 0 := by
          by_contra hne
          rw [(mul_eq_zero.1 e).resolve_left hne, (mul_eq_zero.1 e').resolve_left hne] at l2
          linarith
        have hbc : 0 ≤ h * b := mul_nonneg hh.le hb
        have hbc' : h * (a + b + c) = h := by rw [hsum, mul_one]
        have : h * a = h * (2 / 3) := by rw [sub_eq_zero.1 ha3]
        linarith
      · simp only [List.mem_flatMap, List.mem_range'_1, List.mem_cons, List.not_mem_nil, or_false] at hu
        obtain ⟨i, hi, hu⟩ := hu
        intro hin
        have hs := inTri_side hin
        have hl : leftOf f (k + 1) i ((2 * (f 0).x + (f 1).x) / 3) ((2 * (f 0).y + (f 1).y) / 3) = 0 := by
          rcases hu with rfl | rfl
          · rw [(wall_side f h (k + 1) i _).1] at hs
            exact (mul_eq_zero.1 hs).resolve_left hh.ne'
          · rw [(wall_side f h (k + 1) i _).2] at hs
            exact (mul_eq_zero.1 hs).resolve_left hh.ne'
        have hsplit : leftOf f (k + 1) i ((2 * (f 0).x + (f 1).x) / 3) ((2 * (f 0).y + (f 1).y) / 3) =
            2 / 3 * leftOf f (k + 1) i (f 0).x (f 0).y + 1 / 3 * leftOf f (k + 1) i (f 1).x (f 1).y := by
          unfold leftOf; ring
        rw [hsplit] at hl
        have c0 : leftOf f (k + 1) i (f 0).x (f 0).y ≤ 0 := hcc i (by omega) 0 (by omega)
        have c1 : leftOf f (k + 1) i (f 1).x (f 1).y ≤ 0 := hcc i (by omega) 1 (by omega)
        rcases next_cases (i := i) (n := k + 1) (by omega) with ⟨a, b⟩ | ⟨a, b⟩
        · have := hc.2 i (by omega) 0 (by omega) (by omega) (by omega)
          linarith
        · have := hc.2 i (by omega) 1 (by omega) (by omega) (by omega)
          linarith

/-! ## Probes through vertices -/

theorem contact_vertex {p q v1 v2 v3 : Vec3} {i : TriI} {j : ℕ} (h : contact p q (i, v1, v2, v3) = some (.vertex j)) :
    ∃ s : ℝ, 0 ≤ s ∧ s ≤ 1 ∧ lerp p q s ∈ [v1, v2, v3] := by
  unfold contact at h
  split_ifs at h with g1 g2 g3 g4 g5 g6 g7
  · simp at h
  · simp at h
  · simp at h
  · simp at h
  · obtain ⟨s, a, b, c, s0, s1, -, -, -, hs, -, hb, hc, e⟩ := g5
    have hb := hb.2 trivial
    have hc := hc.2 trivial
    have ha : a = 1 := by linarith
    refine ⟨s, s0, s1, ?_⟩
    have : lerp p q s = v1 := by rw [e, ha, hb, hc]; ext <;> simp
    simp [this]
  · obtain ⟨s, a, b, c, s0, s1, -, -, -, hs, hb, -, hc, e⟩ := g6
    have hb := hb.2 trivial
    have hc := hc.2 trivial
    have ha : b = 1 := by linarith
    refine ⟨s, s0, s1, ?_⟩
    have : lerp p q s = v2 := by rw [e, ha, hb, hc]; ext <;> simp
    simp [this]
  · obtain ⟨s, a, b, c, s0, s1, -, -, -, hs, hb, hc, -, e⟩ := g7
    have hb := hb.2 trivial
    have hc := hc.2 trivial
    have ha : c = 1 := by linarith
    refine ⟨s, s0, s1, ?_⟩
    have : lerp p q s = v3 := by rw [e, ha, hb, hc]; ext <;> simp
    simp [this]

theorem avoids_contact {m : Mesh} {ts : List (Vec3 × Vec3 × Vec3)} (hs : soup m.points m.tris = some ts) {p q : Vec3}
    (h : AvoidsVertices m p q) : ∀ x ∈ m.tris.zip ts, ∀ i, contact p q x ≠ some (.vertex i) := by
  intro x hx i hi
  obtain ⟨s, s0, s1, hv⟩ := contact_vertex hi
  exact h _ (soup_corner_mem hs x.2 (List.of_mem_zip (a := x.1) (b := x.2) hx).2 _ hv) s s0 s1 rfl

/-- The far point of a probe is at half the height: probes that start between the caps meet no vertex. -/
theorem between_avoids {f : ℕ → Vec2} {n : ℕ} {h : ℝ} {m : Mesh} (hm : m.points = ring f n h) {p : Vec3} {d : ℝ}
    (hp : |p.z| < h / 2) : AvoidsVertices m p ⟨d, 0, 0⟩ := by
  intro v hv s s0 s1 he
  have hz : v.z = -h / 2 ∨ v.z = h / 2 := by
    rw [hm] at hv
    simp only [ring, List.mem_flatMap, List.mem_range'_1, List.mem_cons, List.not_mem_nil, or_false] at hv
    obtain ⟨k, -, rfl | rfl⟩ := hv
    · exact .inl rfl
    · exact .inr rfl
  have h1 : (1 - s) * p.z = v.z := by
    rw [← he]; simp only [lerp]; ring
  have h2 : |v.z| = h / 2 := by
    have h0 : 0 < h / 2 := lt_of_le_of_lt (abs_nonneg _) hp
    rcases hz with hz | hz
    · rw [hz, neg_div, abs_neg, abs_of_pos h0]
    · rw [hz, abs_of_pos h0]
  rw [← h1, abs_mul, abs_of_nonneg (by linarith)] at h2
  have := mul_le_mul_of_nonneg_right (show 1 - s ≤ 1 by linarith) (abs_nonneg p.z)
  linarith

/-! ## The regular polygon -/

/-- The corners of a cylinder. (Helper.) -/
noncomputable def circle (radius : ℝ) (n i : ℕ) : Vec2 :=
  ⟨Real.sin (2 * Real.pi * i / n) * radius, Real.cos (2 * Real.pi * i / n) * radius⟩

theorem circle_left (radius : ℝ) {n i : ℕ} (hi : i < n) (x y : ℝ) : leftOf (circle radius n) n i x y =
    2 * radius * Real.sin (Real.pi / n) * (x * Real.sin (Real.pi * (2 * i + 1) / n) + y * Real.cos (Real.pi * (2 * i + 1) / n) -
      radius * Real.cos (Real.pi / n)) := by
  have n0 : (n : ℝ) ≠ 0 := by
    have : n ≠ 0 := by omega
    exact_mod_cast this
  have per : Real.sin (2 * Real.pi * ((i + 1) % n : ℕ) / n) = Real.sin (Real.pi * (2 * i + 1) / n + Real.pi / n) ∧
      Real.cos (2 * Real.pi * ((i + 1) % n : ℕ) / n) = Real.cos (Real.pi * (2 * i + 1) / n + Real.pi / n) := by
    have e : Real.pi * (2 * i + 1) / n + Real.pi / n = 2 * Real.pi * (i + 1) / n := by field_simp; ring
    rw [e]
    rcases next_cases hi with ⟨-, h⟩ | ⟨h, h'⟩
    · rw [h]
      push_cast
      exact ⟨rfl, rfl⟩
    · have : (i : ℝ) + 1 = n := by exact_mod_cast h
      rw [h', this, mul_div_assoc _ _ (n : ℝ), mul_div_assoc _ (n : ℝ), div_self n0]
      simp
  have e0 : 2 * Real.pi * i / n = Real.pi * (2 * i + 1) / n - Real.pi / n := by field_simp; ring
  unfold leftOf circle
  simp only
  rw [per.1, per.2, e0, Real.sin_add, Real.cos_add, Real.sin_sub, Real.cos_sub]
  have h1 := Real.sin_sq_add_cos_sq (Real.pi * (2 * i + 1) / n)
  generalize Real.sin (Real.pi * (2 * i + 1) / n) = S at *
  generalize Real.cos (Real.pi * (2 * i + 1) / n) = C at *
  generalize Real.sin (Real.pi / n) = s
  generalize Real.cos (Real.pi / n) = c
  linear_combination (-2 * radius ^ 2 * s * c) * h1

theorem circle_angles {n : ℕ} (hn : 3 ≤ n) : 0 < Real.sin (Real.pi / n) ∧ 0 < Real.cos (Real.pi / n) := by
  have n3 : (3 : ℝ) ≤ n := by exact_mod_cast hn
  have hp := Real.pi_pos
  have h0 : 0 < Real.pi / n := by positivity
  have h1 : Real.pi / n < Real.pi / 2 := div_lt_div_of_pos_left hp (by norm_num) (by linarith)
  exact ⟨Real.sin_pos_of_pos_of_lt_pi h0 (by linarith), Real.cos_pos_of_mem_Ioo ⟨by linarith, h1⟩⟩

theorem circle_strict {radius : ℝ} (hr : 0 < radius) {n : ℕ} (hn : 3 ≤ n) : StrictlyConvex (circle radius n) n := by
  refine ⟨hn, fun i hi k hk h1 h2 => ?_⟩
  obtain ⟨s0, c0⟩ := circle_angles hn
  rw [circle_left radius hi]
  have n0 : (0 : ℝ) < n := by
    have : 0 < n := by omega
    exact_mod_cast this
  have hp := Real.pi_pos
  have e : (circle radius n k).x * Real.sin (Real.pi * (2 * i + 1) / n) +
      (circle radius n k).y * Real.cos (Real.pi * (2 * i + 1) / n) =
      radius * Real.cos (2 * Real.pi * k / n - Real.pi * (2 * i + 1) / n) := by
    unfold circle
    simp only
    rw [Real.cos_sub]; ring
  rw [e]
  -- the angle between the corner and the middle of the edge
  have key : Real.cos (2 * Real.pi * k / n - Real.pi * (2 * i + 1) / n) < Real.cos (Real.pi / n) := by
    have e2 : 2 * Real.pi * k / n - Real.pi * (2 * i + 1) / n = Real.pi / n * (2 * (k - i) - 1) := by field_simp; ring
    have hd : ∀ m : ℝ, 3 ≤ m → m ≤ 2 * n - 3 → Real.cos (Real.pi / n * m) < Real.cos (Real.pi / n) := by
      intro m m1 m2
      rcases le_total m n with hm | hm
      · refine Real.cos_lt_cos_of_nonneg_of_le_pi (by positivity) ?_ ?_
        · calc Real.pi / n * m ≤ Real.pi / n * n := by gcongr
            _ = Real.pi := by field_simp
        · have : 0 < Real.pi / n := by positivity
          nlinarith
      · have e3 : Real.cos (Real.pi / n * m) = Real.cos (Real.pi / n * (2 * n - m)) := by
          rw [show Real.pi / n * (2 * n - m) = 2 * Real.pi - Real.pi / n * m by field_simp, Real.cos_two_pi_sub]
        rw [e3]
        refine Real.cos_lt_cos_of_nonneg_of_le_pi (by positivity) ?_ ?_
        · calc Real.pi / n * (2 * n - m) ≤ Real.pi / n * n := by gcongr; linarith
            _ = Real.pi := by field_simp
        · have : 0 < Real.pi / n := by positivity
          nlinarith
    rw [e2]
    have hi' : (i : ℝ) + 1 ≤ n := by exact_mod_cast hi
    have hk' : (k : ℝ) + 1 ≤ n := by exact_mod_cast hk
    rcases Nat.lt_or_ge k i with hki | hki
    · rw [← Real.cos_neg, ← mul_neg]
      have a : (k : ℝ) + 1 ≤ i := by exact_mod_cast hki
      refine hd _ (by linarith) ?_
      have : i < k + (n - 1) := by
        rcases next_cases hi with ⟨p, q⟩ | ⟨p, q⟩ <;> omega
      have : (i : ℝ) + 2 ≤ k + n := by
        have : i + 2 ≤ k + n := by omega
        exact_mod_cast this
      linarith
    · have hne : i + 2 ≤ k := by
        rcases next_cases hi with ⟨p, q⟩ | ⟨p, q⟩ <;> omega
      have a : (i : ℝ) + 2 ≤ k := by exact_mod_cast hne
      have i0 : (0 : ℝ) ≤ i := Nat.cast_nonneg i
      exact hd _ (by linarith) (by linarith)
  have := mul_lt_mul_of_pos_left key hr
  exact mul_neg_of_pos_of_neg (by positivity) (by linarith)

theorem circle_within {radius : ℝ} (hr : 0 < radius) {n : ℕ} (hn : 3 ≤ n) {h : ℝ} {p : Vec3}
    (h1 : -(h / 2) < p.z) (h2 : p.z < h / 2) (hp : p.x ^ 2 + p.y ^ 2 < (radius * Real.cos (Real.pi / n)) ^ 2) :
    Within (circle radius n) n h p := by
  refine ⟨h1, h2, fun i hi => ?_⟩
  obtain ⟨s0, c0⟩ := circle_angles hn
  rw [circle_left radius hi]
  have key : p.x * Real.sin (Real.pi * (2 * i + 1) / n) + p.y * Real.cos (Real.pi * (2 * i + 1) / n) <
      radius * Real.cos (Real.pi / n) := by
    refine lt_of_pow_lt_pow_left₀ 2 (by positivity) (lt_of_le_of_lt ?_ hp)
    have h1 := Real.sin_sq_add_cos_sq (Real.pi * (2 * i + 1) / n)
    generalize Real.sin (Real.pi * (2 * i + 1) / n) = S at *
    generalize Real.cos (Real.pi * (2 * i + 1) / n) = C at *
    have : (p.x ^ 2 + p.y ^ 2) * (S ^ 2 + C ^ 2) - (p.x * S + p.y * C) ^ 2 = (p.x * C - p.y * S) ^ 2 := by ring
    rw [h1] at this
    nlinarith [sq_nonneg (p.x * C - p.y * S)]
  exact mul_neg_of_pos_of_neg (by positivity) (by linarith)

theorem circle_beyond {radius : ℝ} (hr : 0 < radius) {n : ℕ} (hn : 3 ≤ n) {h : ℝ} {p : Vec3}
    (hp : radius ^ 2 < p.x ^ 2 + p.y ^ 2) : Beyond (circle radius n) n h p := by
  obtain ⟨s0, c0⟩ := circle_angles hn
  have n0 : (0 : ℝ) < n := by
    have : 0 < n := by omega
    exact_mod_cast this
  have hpi := Real.pi_pos
  -- the direction of the point
  obtain ⟨φ, ρ, f0, f1, hρ, hx, hy⟩ : ∃ φ ρ : ℝ, 0 ≤ φ ∧ φ < 2 * Real.pi ∧ radius < ρ ∧ p.x = ρ * Real.sin φ ∧
      p.y = ρ * Real.cos φ := by
    set z : ℂ := ⟨p.y, p.x⟩ with hz
    have hre : p.y = ‖z‖ * Real.cos (Complex.arg z) := by
      rw [Complex.norm_mul_cos_arg]
    have him : p.x = ‖z‖ * Real.sin (Complex.arg z) := by
      rw [Complex.norm_mul_sin_arg]
    have hnorm : radius < ‖z‖ := by
      refine lt_of_pow_lt_pow_left₀ 2 (norm_nonneg z) ?_
      rw [← Complex.normSq_eq_norm_sq, Complex.normSq_mk]
      linarith
    rcases lt_or_ge (Complex.arg z) 0 with ha | ha
    · refine ⟨Complex.arg z + 2 * Real.pi, ‖z‖, ?_, by linarith, hnorm, ?_, ?_⟩
      · linarith [Complex.neg_pi_lt_arg z]
      · rw [Real.sin_add_two_pi]; exact him
      · rw [Real.cos_add_two_pi]; exact hre
    · exact ⟨Complex.arg z, ‖z‖, ha, by linarith [Complex.arg_le_pi z], hnorm, him, hre⟩
  set q : ℝ := φ * n / (2 * Real.pi) with hq
  have q0 : 0 ≤ q := by positivity
  have hqφ : φ = 2 * Real.pi * q / n := by rw [hq]; field_simp
  have l1 := Nat.floor_le q0
  have l2 := Nat.lt_floor_add_one q
  have hi : ⌊q⌋₊ < n := by
    rw [Nat.floor_lt q0, hq, div_lt_iff₀ (by positivity)]
    nlinarith
  refine .inr (.inr ⟨⌊q⌋₊, hi, ?_⟩)
  rw [circle_left radius hi]
  generalize ⌊q⌋₊ = i at *
  have e : p.x * Real.sin (Real.pi * (2 * i + 1) / n) + p.y * Real.cos (Real.pi * (2 * i + 1) / n) =
      ρ * Real.cos (φ - Real.pi * (2 * i + 1) / n) := by
    rw [hx, hy, Real.cos_sub]; ring
  have hcos : Real.cos (Real.pi / n) ≤ Real.cos (φ - Real.pi * (2 * i + 1) / n) := by
    rw [← Real.cos_abs (φ - _)]
    have hd : φ - Real.pi * (2 * i + 1) / n = Real.pi / n * (2 * (q - i) - 1) := by rw [hqφ]; field_simp; ring
    have hpn : 0 < Real.pi / n := by positivity
    refine Real.cos_le_cos_of_nonneg_of_le_pi (abs_nonneg _) ?_ ?_
    · have : (1 : ℝ) ≤ n := by
        have : 1 ≤ n := by omega
        exact_mod_cast this
      exact div_le_self hpi.le this
    · rw [hd, abs_mul, abs_of_pos hpn]
      have : |2 * (q - i) - 1| ≤ 1 := abs_le.2 ⟨by linarith, by linarith⟩
      calc Real.pi / n * |2 * (q - i) - 1| ≤ Real.pi / n * 1 := by gcongr
        _ = Real.pi / n := mul_one _
  rw [e]
  have : radius * Real.cos (Real.pi / n) < ρ * Real.cos (φ - Real.pi * (2 * i + 1) / n) :=
    calc radius * Real.cos (Real.pi / n) < ρ * Real.cos (Real.pi / n) := mul_lt_mul_of_pos_right hρ c0
      _ ≤ _ := mul_le_mul_of_nonneg_left hcos (by linarith)
  exact mul_pos (by positivity) (by linarith)

/-! ## Concrete solids -/

/-- The triangles of a cylinder with 4 corners, radius 4 and height 6. (Device of the proofs.) -/
def columnTs : List (Vec3 × Vec3 × Vec3) :=
  [(⟨0, 4, -3⟩, ⟨4, 0, -3⟩, ⟨0, -4, -3⟩),
    (⟨0, 4, 3⟩, ⟨0, -4, 3⟩, ⟨4, 0, 3⟩),
    (⟨0, 4, -3⟩, ⟨0, -4, -3⟩, ⟨-4, 0, -3⟩),
    (⟨0, 4, 3⟩, ⟨-4, 0, 3⟩, ⟨0, -4, 3⟩),
    (⟨0, 4, -3⟩, ⟨0, 4, 3⟩, ⟨4, 0, -3⟩),
    (⟨0, 4, 3⟩, ⟨4, 0, 3⟩, ⟨4, 0, -3⟩),
    (⟨4, 0, -3⟩, ⟨4, 0, 3⟩, ⟨0, -4, -3⟩),
    (⟨4, 0, 3⟩, ⟨0, -4, 3⟩, ⟨0, -4, -3⟩),
    (⟨0, -4, -3⟩, ⟨0, -4, 3⟩, ⟨-4, 0, -3⟩),
    (⟨0, -4, 3⟩, ⟨-4, 0, 3⟩, ⟨-4, 0, -3⟩),
    (⟨-4, 0, -3⟩, ⟨-4, 0, 3⟩, ⟨0, 4, -3⟩),
    (⟨-4, 0, 3⟩, ⟨0, 4, 3⟩, ⟨0, 4, -3⟩)]

theorem column_in : ∀ t ∈ columnTs, Clear ⟨3/10, 2/5, -1/2⟩ ⟨1.1 * 5, 0, 0⟩ t ∧
    (∀ i j, contact ⟨3/10, 2/5, -1/2⟩ ⟨1.1 * 5, 0, 0⟩ (i, t) ≠ some (.vertex j)) ∧
    ∀ e ∈ rim t, 1e-16 < |vol4 ⟨3/10, 2/5, -1/2⟩ ⟨1.1 * 5, 0, 0⟩ e.1 e.2| := by
  intro t ht
  simp only [columnTs, List.mem_cons, List.not_mem_nil, or_false] at ht
  rcases ht with rfl | rfl | rfl | rfl | rfl | rfl | rfl | rfl | rfl | rfl | rfl | rfl
  · exact clear_case (433/20) (1007/50) (967/50) (3201/100) (439/100) (112/25) (253/50) (283/50) (283/50) (801/100) (by simp only [vol4_eq]; norm_num)
      (by simp only [vol4_eq]; norm_num) (by simp only [vol4_eq]; norm_num) (by simp only [side]; norm_num)
      (by norm_num [area4]) (by norm_num [distSq])
  · exact clear_case (257/10) (2379/100) (281/10) (3201/100) (251/50) (563/100) (51/10) (801/100) (283/50) (283/50) (by simp only [vol4_eq]; norm_num)
      (by simp only [vol4_eq]; norm_num) (by simp only [vol4_eq]; norm_num) (by simp only [side]; norm_num)
      (by norm_num [area4]) (by norm_num [distSq])
  · exact clear_case (588/25) (421/20) (1007/50) (3201/100) (439/100) (253/50) (249/50) (801/100) (283/50) (283/50) (by simp only [vol4_eq]; norm_num)
      (by simp only [vol4_eq]; norm_num) (by simp only [vol4_eq]; norm_num) (by simp only [side]; norm_num)
      (by norm_num [area4]) (by norm_num [distSq])
  · exact clear_case (273/10) (281/10) (126/5) (3201/100) (251/50) (111/20) (563/100) (283/50) (283/50) (801/100) (by simp only [vol4_eq]; norm_num)
      (by simp only [vol4_eq]; norm_num) (by simp only [vol4_eq]; norm_num) (by simp only [side]; norm_num)
      (by norm_num [area4]) (by norm_num [distSq])
  · exact clear_case (1951/100) (967/50) (2167/100) (679/20) (439/100) (251/50) (112/25) (601/100) (33/4) (283/50) (by simp only [vol4_eq]; norm_num)
      (by simp only [vol4_eq]; norm_num) (by simp only [vol4_eq]; norm_num) (by simp only [side]; norm_num)
      (by norm_num [area4]) (by norm_num [distSq])
  · exact clear_case (558/25) (1951/100) (2379/100) (679/20) (251/50) (51/10) (112/25) (283/50) (601/100) (33/4) (by simp only [vol4_eq]; norm_num)
      (by simp only [vol4_eq]; norm_num) (by simp only [vol4_eq]; norm_num) (by simp only [side]; norm_num)
      (by norm_num [area4]) (by norm_num [distSq])
  · exact clear_case (123/5) (433/20) (558/25) (679/20) (112/25) (51/10) (253/50) (601/100) (33/4) (283/50) (by simp only [vol4_eq]; norm_num)
      (by simp only [vol4_eq]; norm_num) (by simp only [vol4_eq]; norm_num) (by simp only [side]; norm_num)
      (by norm_num [area4]) (by norm_num [distSq])
  · exact clear_case (1323/50) (123/5) (257/10) (679/20) (51/10) (563/100) (253/50) (283/50) (601/100) (33/4) (by simp only [vol4_eq]; norm_num)
      (by simp only [vol4_eq]; norm_num) (by simp only [vol4_eq]; norm_num) (by simp only [side]; norm_num)
      (by norm_num [area4]) (by norm_num [distSq])
  · exact clear_case (2751/100) (588/25) (1323/50) (679/20) (253/50) (563/100) (249/50) (601/100) (33/4) (283/50) (by simp only [vol4_eq]; norm_num)
      (by simp only [vol4_eq]; norm_num) (by simp only [vol4_eq]; norm_num) (by simp only [side]; norm_num)
      (by norm_num [area4]) (by norm_num [distSq])
  · exact clear_case (2591/100) (2751/100) (273/10) (679/20) (563/100) (111/20) (249/50) (283/50) (601/100) (33/4) (by simp only [vol4_eq]; norm_num)
      (by simp only [vol4_eq]; norm_num) (by simp only [vol4_eq]; norm_num) (by simp only [side]; norm_num)
      (by norm_num [area4]) (by norm_num [distSq])
  · exact clear_case (1137/50) (421/20) (2591/100) (679/20) (249/50) (111/20) (439/100) (601/100) (33/4) (283/50) (by simp only [vol4_eq]; norm_num)
      (by simp only [vol4_eq]; norm_num) (by simp only [vol4_eq]; norm_num) (by simp only [side]; norm_num)
      (by norm_num [area4]) (by norm_num [distSq])
  · exact clear_case (2167/100) (1137/50) (126/5) (679/20) (111/20) (251/50) (439/100) (283/50) (601/100) (33/4) (by simp only [vol4_eq]; norm_num)
      (by simp only [vol4_eq]; norm_num) (by simp only [vol4_eq]; norm_num) (by simp only [side]; norm_num)
      (by norm_num [area4]) (by norm_num [distSq])

theorem column_out : ∀ t ∈ columnTs, Clear ⟨-3, 3, 1/2⟩ ⟨1.1 * 5, 0, 0⟩ t ∧
    (∀ i j, contact ⟨-3, 3, 1/2⟩ ⟨1.1 * 5, 0, 0⟩ (i, t) ≠ some (.vertex j)) ∧
    ∀ e ∈ rim t, 1e-16 < |vol4 ⟨-3, 3, 1/2⟩ ⟨1.1 * 5, 0, 0⟩ e.1 e.2| := by
  intro t ht
  simp only [columnTs, List.mem_cons, List.not_mem_nil, or_false] at ht
  rcases ht with rfl | rfl | rfl | rfl | rfl | rfl | rfl | rfl | rfl | rfl | rfl | rfl
  · exact clear_case (4463/100) (3687/100) (509/20) (3201/100) (471/100) (419/50) (419/50) (283/50) (283/50) (801/100) (by simp only [vol4_eq]; norm_num)
      (by simp only [vol4_eq]; norm_num) (by simp only [vol4_eq]; norm_num) (by simp only [side]; norm_num)
      (by norm_num [area4]) (by norm_num [distSq])
  · exact clear_case (2121/50) (427/20) (781/25) (3201/100) (403/100) (801/100) (801/100) (801/100) (283/50) (283/50) (by simp only [vol4_eq]; norm_num)
      (by simp only [vol4_eq]; norm_num) (by simp only [vol4_eq]; norm_num) (by simp only [side]; norm_num)
      (by norm_num [area4]) (by norm_num [distSq])
  · exact clear_case (509/20) (427/20) (3687/100) (3201/100) (471/100) (419/50) (471/100) (801/100) (283/50) (283/50) (by simp only [vol4_eq]; norm_num)
      (by simp only [vol4_eq]; norm_num) (by simp only [vol4_eq]; norm_num) (by simp only [side]; norm_num)
      (by norm_num [area4]) (by norm_num [distSq])
  · exact clear_case (427/20) (781/25) (406/25) (3201/100) (403/100) (403/100) (801/100) (283/50) (283/50) (801/100) (by simp only [vol4_eq]; norm_num)
      (by simp only [vol4_eq]; norm_num) (by simp only [vol4_eq]; norm_num) (by simp only [side]; norm_num)
      (by norm_num [area4]) (by norm_num [distSq])
  · exact clear_case (3249/100) (509/20) (1897/100) (679/20) (471/100) (403/100) (419/50) (601/100) (33/4) (283/50) (by simp only [vol4_eq]; norm_num)
      (by simp only [vol4_eq]; norm_num) (by simp only [vol4_eq]; norm_num) (by simp only [side]; norm_num)
      (by norm_num [area4]) (by norm_num [distSq])
  · exact clear_case (4569/100) (3249/100) (427/20) (679/20) (403/100) (801/100) (419/50) (283/50) (601/100) (33/4) (by simp only [vol4_eq]; norm_num)
      (by simp only [vol4_eq]; norm_num) (by simp only [vol4_eq]; norm_num) (by simp only [side]; norm_num)
      (by norm_num [area4]) (by norm_num [distSq])
  · exact clear_case (5837/100) (4463/100) (4569/100) (679/20) (419/50) (801/100) (419/50) (601/100) (33/4) (283/50) (by simp only [vol4_eq]; norm_num)
      (by simp only [vol4_eq]; norm_num) (by simp only [vol4_eq]; norm_num) (by simp only [side]; norm_num)
      (by norm_num [area4]) (by norm_num [distSq])
  · exact clear_case (4569/100) (5837/100) (2121/50) (679/20) (801/100) (801/100) (419/50) (283/50) (601/100) (33/4) (by simp only [vol4_eq]; norm_num)
      (by simp only [vol4_eq]; norm_num) (by simp only [vol4_eq]; norm_num) (by simp only [side]; norm_num)
      (by norm_num [area4]) (by norm_num [distSq])
  · exact clear_case (1833/50) (509/20) (4569/100) (679/20) (419/50) (801/100) (471/100) (601/100) (33/4) (283/50) (by simp only [vol4_eq]; norm_num)
      (by simp only [vol4_eq]; norm_num) (by simp only [vol4_eq]; norm_num) (by simp only [side]; norm_num)
      (by norm_num [area4]) (by norm_num [distSq])
  · exact clear_case (1897/100) (1833/50) (427/20) (679/20) (801/100) (403/100) (471/100) (283/50) (601/100) (33/4) (by simp only [vol4_eq]; norm_num)
      (by simp only [vol4_eq]; norm_num) (by simp only [vol4_eq]; norm_num) (by simp only [side]; norm_num)
      (by norm_num [area4]) (by norm_num [distSq])
  · exact clear_case 12 (427/20) (1897/100) (679/20) (471/100) (403/100) (471/100) (601/100) (33/4) (283/50) (by simp only [vol4_eq]; norm_num)
      (by simp only [vol4_eq]; norm_num) (by simp only [vol4_eq]; norm_num) (by simp only [side]; norm_num)
      (by norm_num [area4]) (by norm_num [distSq])
  · exact clear_case (1897/100) 12 (406/25) (679/20) (403/100) (403/100) (471/100) (283/50) (601/100) (33/4) (by simp only [vol4_eq]; norm_num)
      (by simp only [vol4_eq]; norm_num) (by simp only [vol4_eq]; norm_num) (by simp only [side]; norm_num)
      (by norm_num [area4]) (by norm_num [distSq])

/-- The triangles of a prism of height 2 over a triangle. (Device of the proofs.) -/
def wedgeTs : List (Vec3 × Vec3 × Vec3) :=
  [(⟨2, 2, -1⟩, ⟨1, -2, -1⟩, ⟨-2, 1, -1⟩),
    (⟨2, 2, 1⟩, ⟨-2, 1, 1⟩, ⟨1, -2, 1⟩),
    (⟨2, 2, -1⟩, ⟨2, 2, 1⟩, ⟨1, -2, -1⟩),
    (⟨2, 2, 1⟩, ⟨1, -2, 1⟩, ⟨1, -2, -1⟩),
    (⟨1, -2, -1⟩, ⟨1, -2, 1⟩, ⟨-2, 1, -1⟩),
    (⟨1, -2, 1⟩, ⟨-2, 1, 1⟩, ⟨-2, 1, -1⟩),
    (⟨-2, 1, -1⟩, ⟨-2, 1, 1⟩, ⟨2, 2, -1⟩),
    (⟨-2, 1, 1⟩, ⟨2, 2, 1⟩, ⟨2, 2, -1⟩)]

theorem wedge_in : ∀ t ∈ wedgeTs, Clear ⟨3/10, 2/5, -1/5⟩ ⟨1.1 * 3, 0, 0⟩ t ∧
    (∀ i j, contact ⟨3/10, 2/5, -1/5⟩ ⟨1.1 * 3, 0, 0⟩ (i, t) ≠ some (.vertex j)) ∧
    ∀ e ∈ rim t, 1e-16 < |vol4 ⟨3/10, 2/5, -1/5⟩ ⟨1.1 * 3, 0, 0⟩ e.1 e.2| := by
  intro t ht
  simp only [wedgeTs, List.mem_cons, List.not_mem_nil, or_false] at ht
  rcases ht with rfl | rfl | rfl | rfl | rfl | rfl | rfl | rfl
  · exact clear_case (153/25) (287/50) (123/20) (1501/100) (123/50) (131/50) (5/2) (413/100) (17/4) (413/100) (by simp only [vol4_eq]; norm_num)
      (by simp only [vol4_eq]; norm_num) (by simp only [vol4_eq]; norm_num) (by simp only [side]; norm_num)
      (by norm_num [area4]) (by norm_num [distSq])
  · exact clear_case (36/5) (717/100) (341/50) (1501/100) (131/50) (133/50) (277/100) (413/100) (17/4) (413/100) (by simp only [vol4_eq]; norm_num)
      (by simp only [vol4_eq]; norm_num) (by simp only [vol4_eq]; norm_num) (by simp only [side]; norm_num)
      (by norm_num [area4]) (by norm_num [distSq])
  · exact clear_case (293/50) (123/20) (233/50) (33/4) (123/50) (131/50) (131/50) (201/100) (459/100) (413/100) (by simp only [vol4_eq]; norm_num)
      (by simp only [vol4_eq]; norm_num) (by simp only [vol4_eq]; norm_num) (by simp only [side]; norm_num)
      (by norm_num [area4]) (by norm_num [distSq])
  · exact clear_case 5 (293/50) (717/100) (33/4) (131/50) (277/100) (131/50) (413/100) (201/100) (459/100) (by simp only [vol4_eq]; norm_num)
      (by simp only [vol4_eq]; norm_num) (by simp only [vol4_eq]; norm_num) (by simp only [side]; norm_num)
      (by norm_num [area4]) (by norm_num [distSq])
  · exact clear_case (142/25) (153/25) 5 (849/100) (131/50) (277/100) (5/2) (201/100) (47/10) (17/4) (by simp only [vol4_eq]; norm_num)
      (by simp only [vol4_eq]; norm_num) (by simp only [vol4_eq]; norm_num) (by simp only [side]; norm_num)
      (by norm_num [area4]) (by norm_num [distSq])
  · exact clear_case (19/4) (142/25) (36/5) (849/100) (277/100) (133/50) (5/2) (17/4) (201/100) (47/10) (by simp only [vol4_eq]; norm_num)
      (by simp only [vol4_eq]; norm_num) (by simp only [vol4_eq]; norm_num) (by simp only [side]; norm_num)
      (by norm_num [area4]) (by norm_num [distSq])
  · exact clear_case (132/25) (287/50) (19/4) (33/4) (5/2) (133/50) (123/50) (201/100) (459/100) (413/100) (by simp only [vol4_eq]; norm_num)
      (by simp only [vol4_eq]; norm_num) (by simp only [vol4_eq]; norm_num) (by simp only [side]; norm_num)
      (by norm_num [area4]) (by norm_num [distSq])
  · exact clear_case (233/50) (132/25) (341/50) (33/4) (133/50) (131/50) (123/50) (413/100) (201/100) (459/100) (by simp only [vol4_eq]; norm_num)
      (by simp only [vol4_eq]; norm_num) (by simp only [vol4_eq]; norm_num) (by simp only [side]; norm_num)
      (by norm_num [area4]) (by norm_num [distSq])

theorem wedge_out : ∀ t ∈ wedgeTs, Clear ⟨-1, 1, 5/4⟩ ⟨1.1 * 3, 0, 0⟩ t ∧
    (∀ i j, contact ⟨-1, 1, 5/4⟩ ⟨1.1 * 3, 0, 0⟩ (i, t) ≠ some (.vertex j)) ∧
    ∀ e ∈ rim t, 1e-16 < |vol4 ⟨-1, 1, 5/4⟩ ⟨1.1 * 3, 0, 0⟩ e.1 e.2| := by
  intro t ht
  simp only [wedgeTs, List.mem_cons, List.not_mem_nil, or_false] at ht
  rcases ht with rfl | rfl | rfl | rfl | rfl | rfl | rfl | rfl
  · exact clear_case 10 (933/100) (719/50) (1501/100) (97/25) (17/4) (123/50) (413/100) (17/4) (413/100) (by simp only [vol4_eq]; norm_num)
      (by simp only [vol4_eq]; norm_num) (by simp only [vol4_eq]; norm_num) (by simp only [side]; norm_num)
      (by norm_num [area4]) (by norm_num [distSq])
  · exact clear_case (159/50) (276/25) (143/100) (1501/100) (317/100) (103/100) (361/100) (413/100) (17/4) (413/100) (by simp only [vol4_eq]; norm_num)
      (by simp only [vol4_eq]; norm_num) (by simp only [vol4_eq]; norm_num) (by simp only [side]; norm_num)
      (by norm_num [area4]) (by norm_num [distSq])
  · exact clear_case 13 (719/50) (158/25) (33/4) (97/25) (317/100) (17/4) (201/100) (459/100) (413/100) (by simp only [vol4_eq]; norm_num)
      (by simp only [vol4_eq]; norm_num) (by simp only [vol4_eq]; norm_num) (by simp only [side]; norm_num)
      (by norm_num [area4]) (by norm_num [distSq])
  · exact clear_case (721/100) 13 (276/25) (33/4) (317/100) (361/100) (17/4) (413/100) (201/100) (459/100) (by simp only [vol4_eq]; norm_num)
      (by simp only [vol4_eq]; norm_num) (by simp only [vol4_eq]; norm_num) (by simp only [side]; norm_num)
      (by norm_num [area4]) (by norm_num [distSq])
  · exact clear_case (439/50) 10 (721/100) (849/100) (17/4) (361/100) (123/50) (201/100) (47/10) (17/4) (by simp only [vol4_eq]; norm_num)
      (by simp only [vol4_eq]; norm_num) (by simp only [vol4_eq]; norm_num) (by simp only [side]; norm_num)
      (by norm_num [area4]) (by norm_num [distSq])
  · exact clear_case 2 (439/50) (159/50) (849/100) (361/100) (103/100) (123/50) (17/4) (201/100) (47/10) (by simp only [vol4_eq]; norm_num)
      (by simp only [vol4_eq]; norm_num) (by simp only [vol4_eq]; norm_num) (by simp only [side]; norm_num)
      (by norm_num [area4]) (by norm_num [distSq])
  · exact clear_case (317/100) (933/100) 2 (33/4) (123/50) (103/100) (97/25) (201/100) (459/100) (413/100) (by simp only [vol4_eq]; norm_num)
      (by simp only [vol4_eq]; norm_num) (by simp only [vol4_eq]; norm_num) (by simp only [side]; norm_num)
      (by norm_num [area4]) (by norm_num [distSq])
  · exact clear_case (158/25) (317/100) (143/100) (33/4) (103/100) (317/100) (97/25) (413/100) (201/100) (459/100) (by simp only [vol4_eq]; norm_num)
      (by simp only [vol4_eq]; norm_num) (by simp only [vol4_eq]; norm_num) (by simp only [side]; norm_num)
      (by norm_num [area4]) (by norm_num [distSq])

end Shapes

end Geo
