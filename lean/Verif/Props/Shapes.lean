import Verif.Lemmas.Shapes

/-!
# Properties of generated cylinders and prisms (C69)
-/

namespace Geo

open Spec Shapes

/-- C69: `createCylinder` with at least 2 corners (and vertex numbers in 32 bits) succeeds and makes a closed prism over the
polygon of points at equal angles, whatever the shape was before. -/
theorem C69_cylinder (s : Shape) (radius height : ℝ) {n : ℕ} (hn : 2 ≤ n) (h32 : 2 * n ≤ 2 ^ 32) :
    ∃ s', createCylinder s radius height n = .ok s' ∧ Prism s'.mesh
      (fun i => ⟨Real.sin (2 * Real.pi * i / n) * radius, Real.cos (2 * Real.pi * i / n) * radius⟩) n height ∧
      s'.bbValid = false := by
  obtain ⟨s', h, hp, ht, -, hb⟩ := cylinder_mesh s radius height hn h32
  exact ⟨s', h, prism_of _ hn height hp ht, hb⟩

example : ∃ s', createCylinder Shape.new 2 5 20 = .ok s' ∧ s'.mesh.points.length = 40 ∧ s'.mesh.tris.length = 76 := by
  obtain ⟨s', h, p, -⟩ := C69_cylinder Shape.new 2 5 (n := 20) (by norm_num) (by norm_num)
  exact ⟨s', h, p.count⟩

/-- C69: the vertices of a cylinder are on it, at half the height above or below. -/
theorem C69_cylinder_on (s : Shape) (radius height : ℝ) {n : ℕ} (hn : 2 ≤ n) (h32 : 2 * n ≤ 2 ^ 32) {s' : Shape}
    (h : createCylinder s radius height n = .ok s') :
    ∀ p ∈ s'.mesh.points, p.x ^ 2 + p.y ^ 2 = radius ^ 2 ∧ (p.z = height / 2 ∨ p.z = -(height / 2)) := by
  obtain ⟨s'', h1, h2, -⟩ := C69_cylinder s radius height hn h32
  rw [h] at h1
  cases h1
  intro p hp
  obtain ⟨k, hk, rfl⟩ := List.mem_iff_getElem.1 hp
  have hk' := hk
  rw [h2.count.1] at hk
  obtain ⟨v1, v2⟩ := h2.vertices (k / 2) (by omega)
  have key : ∀ x y z : ℝ, (s'.mesh.points[k] = ⟨x, y, z⟩) → x ^ 2 + y ^ 2 = radius ^ 2 → z = height / 2 ∨ z = -(height / 2) →
      s'.mesh.points[k].x ^ 2 + s'.mesh.points[k].y ^ 2 = radius ^ 2 ∧
        (s'.mesh.points[k].z = height / 2 ∨ s'.mesh.points[k].z = -(height / 2)) := by
    intro x y z he h1 h2
    rw [he]
    exact ⟨h1, h2⟩
  have circ : ∀ a : ℝ, (Real.sin a * radius) ^ 2 + (Real.cos a * radius) ^ 2 = radius ^ 2 := fun a => by
    linear_combination radius ^ 2 * Real.sin_sq_add_cos_sq a
  rcases Nat.mod_two_eq_zero_or_one k with hm | hm
  · rw [show 2 * (k / 2) = k by omega, List.getElem?_eq_getElem hk', Option.some.injEq] at v1
    exact key _ _ _ v1 (circ _) (.inr (by ring))
  · rw [show 2 * (k / 2) + 1 = k by omega, List.getElem?_eq_getElem hk', Option.some.injEq] at v2
    exact key _ _ _ v2 (circ _) (.inl rfl)

/-- C69: the polygon of a cylinder is convex and clockwise, with the area of a regular polygon. -/
theorem C69_cylinder_polygon (radius : ℝ) {n : ℕ} (hn : 2 ≤ n) :
    ConvexClockwise (fun i => ⟨Real.sin (2 * Real.pi * i / n) * radius, Real.cos (2 * Real.pi * i / n) * radius⟩) n ∧
    clockwise2 (fun i => ⟨Real.sin (2 * Real.pi * i / n) * radius, Real.cos (2 * Real.pi * i / n) * radius⟩) n / 2 =
      n / 2 * radius ^ 2 * Real.sin (2 * Real.pi / n) := by
  have n0 : (0 : ℝ) < n := by
    have : 0 < n := by omega
    exact_mod_cast this
  have hp := Real.pi_pos
  -- the corner after the last is the first one
  have per : ∀ i < n, Real.sin (2 * Real.pi * ((i + 1) % n : ℕ) / n) = Real.sin (2 * Real.pi * (i + 1) / n) ∧
      Real.cos (2 * Real.pi * ((i + 1) % n : ℕ) / n) = Real.cos (2 * Real.pi * (i + 1) / n) := by
    intro i hi
    rcases next_cases hi with ⟨-, h⟩ | ⟨h, h'⟩
    · rw [h]
      push_cast
      exact ⟨rfl, rfl⟩
    · have : (i : ℝ) + 1 = n := by exact_mod_cast h
      rw [h', this, mul_div_assoc _ _ (n : ℝ), mul_div_assoc _ (n : ℝ), div_self n0.ne']
      simp
  constructor
  · intro i hi k hk
    simp only
    rw [(per i hi).1, (per i hi).2]
    -- the sign of a product of three sines
    have id : ∀ a b c : ℝ, (Real.sin b * radius - Real.sin a * radius) * (Real.cos c * radius - Real.cos a * radius) -
        (Real.cos b * radius - Real.cos a * radius) * (Real.sin c * radius - Real.sin a * radius) =
        -(4 * radius ^ 2) * (Real.sin ((b - a) / 2) * (Real.sin ((c - a) / 2) * Real.sin ((c - b) / 2))) := by
      intro a b c
      have e : Real.sin ((c - b) / 2) =
          Real.sin ((c + a) / 2) * Real.cos ((b + a) / 2) - Real.cos ((c + a) / 2) * Real.sin ((b + a) / 2) := by
        rw [← Real.sin_sub]
        ring_nf
      rw [← sub_mul, ← sub_mul, ← sub_mul, ← sub_mul, Real.sin_sub_sin, Real.sin_sub_sin, Real.cos_sub_cos, Real.cos_sub_cos, e]
      ring
    rw [id]
    have e1 : (2 * Real.pi * (i + 1) / n - 2 * Real.pi * i / n) / 2 = Real.pi * (1 / n) := by field_simp; ring
    have e2 : (2 * Real.pi * k / n - 2 * Real.pi * i / n) / 2 = Real.pi * ((k - i) / n) := by field_simp
    have e3 : (2 * Real.pi * k / n - 2 * Real.pi * (i + 1) / n) / 2 = Real.pi * ((k - i - 1) / n) := by field_simp; ring
    rw [e1, e2, e3]
    -- sines of fractions of a half turn
    have pos : ∀ t : ℝ, 0 ≤ t → t ≤ n → 0 ≤ Real.sin (Real.pi * (t / n)) := fun t h1 h2 =>
      Real.sin_nonneg_of_nonneg_of_le_pi (by positivity)
        (mul_le_of_le_one_right hp.le ((div_le_one n0).2 h2))
    have neg : ∀ t : ℝ, t ≤ 0 → -n ≤ t → Real.sin (Real.pi * (t / n)) ≤ 0 := fun t h1 h2 => by
      have := pos (-t) (by linarith) (by linarith)
      rw [neg_div, mul_neg, Real.sin_neg] at this
      linarith
    have s1 := pos 1 zero_le_one (by exact_mod_cast (by omega : 1 ≤ n))
    have hi' : (i : ℝ) + 1 ≤ n := by exact_mod_cast hi
    have hk' : (k : ℝ) + 1 ≤ n := by exact_mod_cast hk
    have i0 : (0 : ℝ) ≤ i := Nat.cast_nonneg i
    have k0 : (0 : ℝ) ≤ k := Nat.cast_nonneg k
    have key : 0 ≤ Real.sin (Real.pi * ((k - i) / n)) * Real.sin (Real.pi * ((k - i - 1) / n)) := by
      rcases Nat.lt_or_ge i k with h | h
      · have : (i : ℝ) + 1 ≤ k := by exact_mod_cast h
        exact mul_nonneg (pos _ (by linarith) (by linarith)) (pos _ (by linarith) (by linarith))
      · have : (k : ℝ) ≤ i := by exact_mod_cast h
        exact mul_nonneg_of_nonpos_of_nonpos (neg _ (by linarith) (by linarith)) (neg _ (by linarith) (by linarith))
    rw [neg_mul]
    exact neg_nonpos.2 (mul_nonneg (by positivity) (mul_nonneg s1 key))
  · have : clockwise2 (fun i => ⟨Real.sin (2 * Real.pi * i / n) * radius, Real.cos (2 * Real.pi * i / n) * radius⟩) n =
        ((List.range n).map fun _ => radius ^ 2 * Real.sin (2 * Real.pi / n)).sum := by
      refine congrArg List.sum (List.map_congr_left fun i hi => ?_)
      simp only
      rw [(per i (List.mem_range.1 hi)).1, (per i (List.mem_range.1 hi)).2,
        show 2 * Real.pi / n = 2 * Real.pi * (i + 1) / n - 2 * Real.pi * i / n by field_simp; ring, Real.sin_sub]
      ring
    rw [this, List.map_const', List.sum_replicate, List.length_range, nsmul_eq_mul]
    ring

/-- With 4 corners, radius 2 and height 5 the volume is that of a box with diagonal 4: 8 · 5. -/
example : ∃ s', createCylinder Shape.new 2 5 4 = .ok s' ∧
    (∀ p ∈ s'.mesh.points, p.x ^ 2 + p.y ^ 2 = 4) ∧
    (∃ l, soup s'.mesh.points s'.mesh.tris = some l ∧ (l.map vol6).sum = 6 * 40) ∧
    ∃ l, soup s'.mesh.points s'.mesh.tris = some l ∧ ∀ c ∈ l, ∀ q ∈ s'.mesh.points, side c q ≤ 0 := by
  obtain ⟨s', h, p, -⟩ := C69_cylinder Shape.new 2 5 (n := 4) (by norm_num) (by norm_num)
  obtain ⟨c1, c2⟩ := C69_cylinder_polygon 2 (n := 4) (by norm_num)
  refine ⟨s', h, fun q hq => ?_, ?_, p.outward c1 (by norm_num)⟩
  · rw [(C69_cylinder_on Shape.new 2 5 (by norm_num) (by norm_num) h q hq).1]
    norm_num
  · obtain ⟨l, hl, hv⟩ := p.volume
    refine ⟨l, hl, hv.trans ?_⟩
    rw [c2, show 2 * Real.pi / ((4 : ℕ) : ℝ) = Real.pi / 2 by push_cast; ring, Real.sin_pi_div_two]
    norm_num

/-- C69: `createConvexPolygon` with at least 2 corners (and vertex numbers in 31 bits) succeeds and makes a closed prism over
the polygon. If the polygon is convex and clockwise, the triangles are oriented outward (see `Prism`). -/
theorem C69_polygon (s : Shape) (points : List Vec2) (height : ℝ) (hn : 2 ≤ points.length) (h31 : 2 * points.length ≤ 2 ^ 31) :
    ∃ s', createConvexPolygon s points height = .ok s' ∧
      Prism s'.mesh (fun i => points.getD i ⟨0, 0⟩) points.length height ∧ s'.bbValid = false := by
  obtain ⟨s', h, hp, ht, -, hb⟩ := polygon_mesh s points height hn h31
  exact ⟨s', h, prism_of _ hn height hp ht, hb⟩

/-- A clockwise triangle of area 1 and height 4: its prism is closed, has 8 triangles, volume 4, and is oriented outward. -/
example : ∃ s', createConvexPolygon Shape.new [⟨0, 0⟩, ⟨0, 1⟩, ⟨2, 0⟩] 4 = .ok s' ∧ Watertight s'.mesh.tris ∧
    s'.mesh.tris.length = 8 ∧ (∃ l, soup s'.mesh.points s'.mesh.tris = some l ∧ (l.map vol6).sum = 6 * 4) ∧
    ∃ l, soup s'.mesh.points s'.mesh.tris = some l ∧ ∀ c ∈ l, ∀ q ∈ s'.mesh.points, side c q ≤ 0 := by
  obtain ⟨s', h, p, -⟩ := C69_polygon Shape.new [⟨0, 0⟩, ⟨0, 1⟩, ⟨2, 0⟩] 4 (by simp) (by simp)
  refine ⟨s', h, p.closed, p.count.2, ?_, p.outward ?_ (by norm_num)⟩
  · obtain ⟨l, hl, hv⟩ := p.volume
    refine ⟨l, hl, hv.trans ?_⟩
    norm_num [clockwise2, List.range_succ]
  · intro i hi k hk
    have hi' : i < 3 := hi
    have hk' : k < 3 := hk
    interval_cases i <;> interval_cases k <;> norm_num

/-- C69 without corners: `createConvexPolygon` counts up to an overflow of `int`. -/
theorem C69_no_polygon (s : Shape) (height : ℝ) : createConvexPolygon s [] height = .error .ub := by
  unfold createConvexPolygon
  simp only [List.length_nil, List.foldl_nil, bind, Except.bind, pure, Except.pure]
  rw [loop_fail (a := 1) (b := 2 ^ 30 - 1) (by norm_num) (by norm_num [predU]) (by norm_num)]
  · exact fun i m h1 h2 => ⟨_, polygonCap_small (by omega) m⟩
  · intro m
    unfold polygonCap
    have t : toInt32 (u32 (2 * (2 ^ 30 - 1))) = 2 ^ 31 - 2 := by norm_num [toInt32, u32]
    have e : intOp (2 ^ 31 - 2 + 2) = .error .ub := if_neg (by norm_num)
    rw [t]
    simp only [e, error_bind]

/-- C69 without corners: `createCylinder` makes 2 (2^32 - 2) triangles and no points. -/
theorem C69_no_cylinder (s : Shape) (radius height : ℝ) : ∃ s', createCylinder s radius height 0 = .ok s' ∧
    s'.mesh.points = [] ∧ s'.mesh.tris.length = 2 * (2 ^ 32 - 2) := by
  obtain ⟨s', h1, h2, h3⟩ := createCylinder_zero s radius height (if_pos rfl) (by norm_num)
  exact ⟨s', h1, h2, by rw [h3]; norm_num⟩

end Geo
