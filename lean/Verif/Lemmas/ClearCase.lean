import Verif.Lemmas.Inside

/-!
# Probes in clear position: sufficient conditions without roots, for concrete meshes
-/

namespace Geo

open Spec

/-- Four times the squared area. (Device of the proofs.) -/
def area4 (a b c : Vec3) : ℝ :=
  ((a.y - b.y) * (a.z - c.z) - (a.z - b.z) * (a.y - c.y)) ^ 2 +
  ((a.z - b.z) * (a.x - c.x) - (a.x - b.x) * (a.z - c.z)) ^ 2 +
  ((a.x - b.x) * (a.y - c.y) - (a.y - b.y) * (a.x - c.x)) ^ 2

theorem heron_area4 (a b c : Vec3) : heron a b c = 0.5 * Real.sqrt (area4 a b c) := by
  rw [heron_eq]
  unfold triangleArea Vec3.length area4
  congr 2
  simp only [Vec3.cross, Vec3.sub_x, Vec3.sub_y, Vec3.sub_z]
  ring

/-- A segment that meets no line of an edge passes no corner. -/
theorem no_vertex {p q v1 v2 v3 : Vec3} {i : TriI} (h1 : vol4 p q v1 v2 ≠ 0) (h2 : vol4 p q v2 v3 ≠ 0)
    (h3 : vol4 p q v3 v1 ≠ 0) (j : ℕ) : contact p q (i, v1, v2, v3) ≠ some (.vertex j) := by
  have key : ∀ s a b, lerp p q s = a → vol4 p q a b = 0 := by
    rintro s a b rfl
    simp only [vol4_eq, lerp]; ring
  intro h
  unfold contact at h
  split_ifs at h with g1 g2 g3 g4 g5 g6 g7
  · simp at h
  · simp at h
  · simp at h
  · simp at h
  · obtain ⟨s, a, b, c, -, -, -, -, -, hs, -, hb, hc, e⟩ := g5
    have hb := hb.2 trivial
    have hc := hc.2 trivial
    have ha : a = 1 := by linarith
    exact h1 (key s v1 v2 (by rw [e, ha, hb, hc]; ext <;> simp))
  · obtain ⟨s, a, b, c, -, -, -, -, -, hs, hb, -, hc, e⟩ := g6
    have hb := hb.2 trivial
    have hc := hc.2 trivial
    have ha : b = 1 := by linarith
    exact h2 (key s v2 v3 (by rw [e, ha, hb, hc]; ext <;> simp))
  · obtain ⟨s, a, b, c, -, -, -, -, -, hs, hb, hc, -, e⟩ := g7
    have hb := hb.2 trivial
    have hc := hc.2 trivial
    have ha : c = 1 := by linarith
    exact h3 (key s v3 v1 (by rw [e, ha, hb, hc]; ext <;> simp))

/-- Rational bounds that make a probe clear of a triangle. -/
theorem clear_case {p q v1 v2 v3 : Vec3} (a b c d e1 e2 e3 f1 f2 f3 : ℝ)
    (h12 : 1 / 100 < vol4 p q v1 v2 ^ 2) (h23 : 1 / 100 < vol4 p q v2 v3 ^ 2)
    (h31 : 1 / 100 < vol4 p q v3 v1 ^ 2)
    (hs : side (v1, v2, v3) p * side (v1, v2, v3) q ≤ 0 ∨
      1 / 100 < side (v1, v2, v3) p * side (v1, v2, v3) q)
    (hf : (0 ≤ a ∧ 0 ≤ b ∧ 0 ≤ c ∧ 0 ≤ d ∧ d + 1 / 50 ≤ a + b + c) ∧
      a ^ 2 ≤ area4 v2 p v3 ∧ b ^ 2 ≤ area4 p v1 v3 ∧ c ^ 2 ≤ area4 p v1 v2 ∧ area4 v1 v2 v3 ≤ d ^ 2)
    (he : (0 ≤ e1 ∧ 0 ≤ e2 ∧ 0 ≤ e3 ∧ 0 ≤ f1 ∧ 0 ≤ f2 ∧ 0 ≤ f3 ∧ f1 + 1 / 50 ≤ e1 + e2 ∧
      f2 + 1 / 50 ≤ e2 + e3 ∧ f3 + 1 / 50 ≤ e3 + e1) ∧
      e1 ^ 2 ≤ distSq p v1 ∧ e2 ^ 2 ≤ distSq p v2 ∧ e3 ^ 2 ≤ distSq p v3 ∧
      distSq v2 v1 ≤ f1 ^ 2 ∧ distSq v3 v2 ≤ f2 ^ 2 ∧ distSq v1 v3 ≤ f3 ^ 2) :
    Clear p q (v1, v2, v3) ∧ (∀ i j, contact p q (i, v1, v2, v3) ≠ some (.vertex j)) ∧
      ∀ e ∈ rim (v1, v2, v3), 1e-16 < |vol4 p q e.1 e.2| := by
  have pos : ∀ x : ℝ, 1 / 100 < x ^ 2 → 1e-16 < |x| ∧ x ≠ 0 := by
    intro x hx
    have : (1:ℝ) / 10 < |x| := by
      rw [← sq_abs] at hx
      by_contra hn
      rw [not_lt] at hn
      have := mul_self_le_mul_self (abs_nonneg x) hn
      nlinarith
    refine ⟨by norm_num at *; linarith, ?_⟩
    rintro rfl
    norm_num at hx
  have dc : ∀ x y : Vec3, Spec.dist x y = Real.sqrt (distSq x y) := fun _ _ => rfl
  have ds : ∀ x y : Vec3, distSq x y = distSq y x := by intro x y; simp only [distSq]; ring
  have hprod : ∀ e ∈ rim (v1, v2, v3), 1e-16 < |vol4 p q e.1 e.2| := by
    intro e he
    simp only [rim, List.mem_cons, List.not_mem_nil, or_false] at he
    rcases he with rfl | rfl | rfl
    · exact (pos _ h12).1
    · exact (pos _ h23).1
    · exact (pos _ h31).1
  refine ⟨⟨fun e he => .inr (hprod e he), ?_, ?_, ?_, ?_⟩,
    fun i j => no_vertex (pos _ h12).2 (pos _ h23).2 (pos _ h31).2 j, hprod⟩
  · exact ⟨(v1, v2), by simp [rim], (pos _ h12).2⟩
  · rcases hs with h | h
    · exact .inl h
    · right; norm_num at *; linarith
  · obtain ⟨⟨ha, hb, hc, hd, hsum⟩, h1, h2, h3, h4⟩ := hf
    simp only [heron_area4]
    have k1 := Real.le_sqrt_of_sq_le h1
    have k2 := Real.le_sqrt_of_sq_le h2
    have k3 := Real.le_sqrt_of_sq_le h3
    have k4 := Real.sqrt_le_left hd |>.2 h4
    rw [le_abs]; left
    norm_num at *
    linarith
  · obtain ⟨⟨g1, g2, g3, g4, g5, g6, s1, s2, s3⟩, h1, h2, h3, h4, h5, h6⟩ := he
    have k1 := Real.le_sqrt_of_sq_le h1
    have k2 := Real.le_sqrt_of_sq_le h2
    have k3 := Real.le_sqrt_of_sq_le h3
    have k4 := Real.sqrt_le_left g4 |>.2 h4
    have k5 := Real.sqrt_le_left g5 |>.2 h5
    have k6 := Real.sqrt_le_left g6 |>.2 h6
    intro e he
    simp only [rim, List.mem_cons, List.not_mem_nil, or_false] at he
    rcases he with rfl | rfl | rfl <;> simp only [dc] <;> rw [lt_abs] <;> left
    · rw [ds v2 p]; norm_num at *; linarith
    · rw [ds v3 p]; norm_num at *; linarith
    · rw [ds v1 p]; norm_num at *; linarith

/-! ## Concrete meshes -/

/-- A tetrahedron with corners at distance 3. (Device of the proofs.) -/
def tetraMesh : Mesh := ⟨[⟨2, 2, 1⟩, ⟨-2, 1, 2⟩, ⟨1, -2, 2⟩, ⟨-1, -2, -2⟩],
  [⟨0, 1, 2⟩, ⟨0, 3, 1⟩, ⟨0, 2, 3⟩, ⟨1, 3, 2⟩], [], 0, 0⟩

/-- Its triangles. (Device of the proofs.) -/
def tetraTs : List (Vec3 × Vec3 × Vec3) :=
  [(⟨2, 2, 1⟩, ⟨-2, 1, 2⟩, ⟨1, -2, 2⟩),
    (⟨2, 2, 1⟩, ⟨-1, -2, -2⟩, ⟨-2, 1, 2⟩),
    (⟨2, 2, 1⟩, ⟨1, -2, 2⟩, ⟨-1, -2, -2⟩),
    (⟨-2, 1, 2⟩, ⟨-1, -2, -2⟩, ⟨1, -2, 2⟩)]

theorem tetra_in : ∀ t ∈ tetraTs, Clear ⟨0, 0, 0⟩ ⟨1.1 * 3, 0, 0⟩ t ∧
    (∀ i j, contact ⟨0, 0, 0⟩ ⟨1.1 * 3, 0, 0⟩ (i, t) ≠ some (.vertex j)) ∧
    ∀ e ∈ rim t, 1e-16 < |vol4 ⟨0, 0, 0⟩ ⟨1.1 * 3, 0, 0⟩ e.1 e.2| := by
  intro t ht
  simp only [tetraTs, List.mem_cons, List.not_mem_nil, or_false] at ht
  rcases ht with rfl | rfl | rfl | rfl
  · exact clear_case 9 9 9 (1559/100) 3 3 3 (17/4) (17/4) (17/4) (by simp only [vol4_eq]; norm_num)
      (by simp only [vol4_eq]; norm_num) (by simp only [vol4_eq]; norm_num) (by simp only [side]; norm_num)
      (by norm_num [area4]) (by norm_num [distSq])
  · exact clear_case (403/50) 9 (103/25) (421/20) 3 3 3 (146/25) (51/10) (17/4) (by simp only [vol4_eq]; norm_num)
      (by simp only [vol4_eq]; norm_num) (by simp only [vol4_eq]; norm_num) (by simp only [side]; norm_num)
      (by norm_num [area4]) (by norm_num [distSq])
  · exact clear_case (447/50) (103/25) 9 (1887/100) 3 3 3 (17/4) (112/25) (146/25) (by simp only [vol4_eq]; norm_num)
      (by simp only [vol4_eq]; norm_num) (by simp only [vol4_eq]; norm_num) (by simp only [side]; norm_num)
      (by norm_num [area4]) (by norm_num [distSq])
  · exact clear_case (447/50) 9 (403/50) (1801/100) 3 3 3 (51/10) (112/25) (17/4) (by simp only [vol4_eq]; norm_num)
      (by simp only [vol4_eq]; norm_num) (by simp only [vol4_eq]; norm_num) (by simp only [side]; norm_num)
      (by norm_num [area4]) (by norm_num [distSq])

theorem tetra_in' : ∀ t ∈ tetraTs, Clear ⟨1/10, 1/5, 3/10⟩ ⟨1.1 * 3, 0, 0⟩ t ∧
    (∀ i j, contact ⟨1/10, 1/5, 3/10⟩ ⟨1.1 * 3, 0, 0⟩ (i, t) ≠ some (.vertex j)) ∧
    ∀ e ∈ rim t, 1e-16 < |vol4 ⟨1/10, 1/5, 3/10⟩ ⟨1.1 * 3, 0, 0⟩ e.1 e.2| := by
  intro t ht
  simp only [tetraTs, List.mem_cons, List.not_mem_nil, or_false] at ht
  rcases ht with rfl | rfl | rfl | rfl
  · exact clear_case (819/100) (196/25) (751/100) (1559/100) (27/10) (281/100) (73/25) (17/4) (17/4) (17/4) (by simp only [vol4_eq]; norm_num)
      (by simp only [vol4_eq]; norm_num) (by simp only [vol4_eq]; norm_num) (by simp only [side]; norm_num)
      (by norm_num [area4]) (by norm_num [distSq])
  · exact clear_case (887/100) (751/100) (99/20) (421/20) (27/10) (84/25) (281/100) (146/25) (51/10) (17/4) (by simp only [vol4_eq]; norm_num)
      (by simp only [vol4_eq]; norm_num) (by simp only [vol4_eq]; norm_num) (by simp only [side]; norm_num)
      (by norm_num [area4]) (by norm_num [distSq])
  · exact clear_case (246/25) (99/20) (196/25) (1887/100) (27/10) (73/25) (84/25) (17/4) (112/25) (146/25) (by simp only [vol4_eq]; norm_num)
      (by simp only [vol4_eq]; norm_num) (by simp only [vol4_eq]; norm_num) (by simp only [side]; norm_num)
      (by norm_num [area4]) (by norm_num [distSq])
  · exact clear_case (246/25) (819/100) (887/100) (1801/100) (281/100) (84/25) (73/25) (51/10) (112/25) (17/4) (by simp only [vol4_eq]; norm_num)
      (by simp only [vol4_eq]; norm_num) (by simp only [vol4_eq]; norm_num) (by simp only [side]; norm_num)
      (by norm_num [area4]) (by norm_num [distSq])

theorem tetra_out : ∀ t ∈ tetraTs, Clear ⟨-1, -1, 1⟩ ⟨1.1 * 3, 0, 0⟩ t ∧
    (∀ i j, contact ⟨-1, -1, 1⟩ ⟨1.1 * 3, 0, 0⟩ (i, t) ≠ some (.vertex j)) ∧
    ∀ e ∈ rim t, 1e-16 < |vol4 ⟨-1, -1, 1⟩ ⟨1.1 * 3, 0, 0⟩ e.1 e.2| := by
  intro t ht
  simp only [tetraTs, List.mem_cons, List.not_mem_nil, or_false] at ht
  rcases ht with rfl | rfl | rfl | rfl
  · exact clear_case (519/100) (497/50) (497/50) (1559/100) (106/25) (61/25) (61/25) (17/4) (17/4) (17/4) (by simp only [vol4_eq]; norm_num)
      (by simp only [vol4_eq]; norm_num) (by simp only [vol4_eq]; norm_num) (by simp only [side]; norm_num)
      (by norm_num [area4]) (by norm_num [distSq])
  · exact clear_case (591/100) (497/50) (1307/100) (421/20) (106/25) (79/25) (61/25) (146/25) (51/10) (17/4) (by simp only [vol4_eq]; norm_num)
      (by simp only [vol4_eq]; norm_num) (by simp only [vol4_eq]; norm_num) (by simp only [side]; norm_num)
      (by norm_num [area4]) (by norm_num [distSq])
  · exact clear_case (187/25) (1307/100) (497/50) (1887/100) (106/25) (61/25) (79/25) (17/4) (112/25) (146/25) (by simp only [vol4_eq]; norm_num)
      (by simp only [vol4_eq]; norm_num) (by simp only [vol4_eq]; norm_num) (by simp only [side]; norm_num)
      (by norm_num [area4]) (by norm_num [distSq])
  · exact clear_case (187/25) (519/100) (591/100) (1801/100) (61/25) (79/25) (61/25) (51/10) (112/25) (17/4) (by simp only [vol4_eq]; norm_num)
      (by simp only [vol4_eq]; norm_num) (by simp only [vol4_eq]; norm_num) (by simp only [side]; norm_num)
      (by norm_num [area4]) (by norm_num [distSq])

theorem tetra_radius : IsRadius tetraMesh.points 3 := by
  have e9 : Real.sqrt 9 = 3 := by rw [show (9:ℝ) = 3 ^ 2 by norm_num]; exact Real.sqrt_sq (by norm_num)
  constructor
  · intro p hp
    rw [Spec.dist, Real.sqrt_le_left (by norm_num)]
    simp only [tetraMesh, List.mem_cons, List.not_mem_nil, or_false] at hp
    rcases hp with rfl | rfl | rfl | rfl <;> simp only [distSq] <;> norm_num
  · left
    refine ⟨⟨2, 2, 1⟩, by simp [tetraMesh], ?_⟩
    rw [← e9, Spec.dist]; congr 1; simp only [distSq]; norm_num

theorem tetra_reachable : Reachable tetraMesh := ⟨[.addPoint ⟨2, 2, 1⟩, .addPoint ⟨-2, 1, 2⟩,
  .addPoint ⟨1, -2, 2⟩, .addPoint ⟨-1, -2, -2⟩, .addTriangle 0 1 2, .addTriangle 0 3 1, .addTriangle 0 2 3,
  .addTriangle 1 3 2], by
  simp [Mesh.run, Mesh.step, Mesh.addPoint, Mesh.addTriangle, Mesh.new, Mesh.invalidateCache, bind,
    Except.bind, tetraMesh]⟩

theorem tetra_convex : ConvexSoup tetraTs := by
  intro t ht t' ht' v hv
  simp only [tetraTs, List.mem_cons, List.not_mem_nil, or_false] at ht ht'
  rcases ht with rfl | rfl | rfl | rfl <;> rcases ht' with rfl | rfl | rfl | rfl <;>
    simp only [List.mem_cons, List.not_mem_nil, or_false] at hv <;>
    rcases hv with rfl | rfl | rfl <;> simp only [side] <;> norm_num

theorem tetra_face : HasFace tetraTs := by
  refine ⟨[], _, _, ⟨1 / 3, 1 / 3, 5 / 3⟩, rfl, ⟨1 / 3, 1 / 3, 1 / 3, by norm_num, by norm_num, by norm_num,
    by norm_num, by ext <;> norm_num⟩, ?_⟩
  intro t ht h
  have := inTri_side h
  simp only [List.nil_append, List.mem_cons, List.not_mem_nil, or_false] at ht
  rcases ht with rfl | rfl | rfl <;> simp only [side] at this <;> norm_num at this

/-- The triangles of the box from (-1, -2, -2) to (1, 2, 2). (Device of the proofs.) -/
def boxTs : List (Vec3 × Vec3 × Vec3) :=
  [(⟨1, -2, -2⟩, ⟨-1, -2, -2⟩, ⟨-1, 2, -2⟩),
    (⟨1, -2, -2⟩, ⟨-1, 2, -2⟩, ⟨1, 2, -2⟩),
    (⟨-1, -2, 2⟩, ⟨1, -2, 2⟩, ⟨-1, 2, 2⟩),
    (⟨-1, 2, 2⟩, ⟨1, -2, 2⟩, ⟨1, 2, 2⟩),
    (⟨-1, -2, -2⟩, ⟨-1, -2, 2⟩, ⟨-1, 2, -2⟩),
    (⟨-1, 2, -2⟩, ⟨-1, -2, 2⟩, ⟨-1, 2, 2⟩),
    (⟨1, -2, 2⟩, ⟨1, -2, -2⟩, ⟨1, 2, -2⟩),
    (⟨1, -2, 2⟩, ⟨1, 2, -2⟩, ⟨1, 2, 2⟩),
    (⟨-1, -2, -2⟩, ⟨1, -2, -2⟩, ⟨-1, -2, 2⟩),
    (⟨-1, -2, 2⟩, ⟨1, -2, -2⟩, ⟨1, -2, 2⟩),
    (⟨1, 2, -2⟩, ⟨-1, 2, -2⟩, ⟨-1, 2, 2⟩),
    (⟨1, 2, -2⟩, ⟨-1, 2, 2⟩, ⟨1, 2, 2⟩)]

theorem box_in : ∀ t ∈ boxTs, Clear ⟨3/10, 2/5, -1/2⟩ ⟨1.1 * 3, 0, 0⟩ t ∧
    (∀ i j, contact ⟨3/10, 2/5, -1/2⟩ ⟨1.1 * 3, 0, 0⟩ (i, t) ≠ some (.vertex j)) ∧
    ∀ e ∈ rim t, 1e-16 < |vol4 ⟨3/10, 2/5, -1/2⟩ ⟨1.1 * 3, 0, 0⟩ e.1 e.2| := by
  intro t ht
  simp only [boxTs, List.mem_cons, List.not_mem_nil, or_false] at ht
  rcases ht with rfl | rfl | rfl | rfl | rfl | rfl | rfl | rfl | rfl | rfl | rfl | rfl
  · exact clear_case (793/100) 7 (283/50) (801/100) (291/100) (311/100) (127/50) (201/100) (401/100) (112/25) (by simp only [vol4_eq]; norm_num)
      (by simp only [vol4_eq]; norm_num) (by simp only [vol4_eq]; norm_num) (by simp only [side]; norm_num)
      (by norm_num [area4]) (by norm_num [distSq])
  · exact clear_case (219/50) (331/50) 7 (801/100) (291/100) (127/50) (23/10) (112/25) (201/100) (401/100) (by simp only [vol4_eq]; norm_num)
      (by simp only [vol4_eq]; norm_num) (by simp only [vol4_eq]; norm_num) (by simp only [side]; norm_num)
      (by norm_num [area4]) (by norm_num [distSq])
  · exact clear_case (227/20) (1127/100) (693/100) (801/100) (37/10) (353/100) (81/25) (201/100) (112/25) (401/100) (by simp only [vol4_eq]; norm_num)
      (by simp only [vol4_eq]; norm_num) (by simp only [vol4_eq]; norm_num) (by simp only [side]; norm_num)
      (by norm_num [area4]) (by norm_num [distSq])
  · exact clear_case (519/50) (593/100) (227/20) (801/100) (81/25) (353/100) (76/25) (112/25) (401/100) (201/100) (by simp only [vol4_eq]; norm_num)
      (by simp only [vol4_eq]; norm_num) (by simp only [vol4_eq]; norm_num) (by simp only [side]; norm_num)
      (by norm_num [area4]) (by norm_num [distSq])
  · exact clear_case (184/25) (793/100) (1091/100) (1601/100) (311/100) (37/10) (127/50) (401/100) (283/50) (401/100) (by simp only [vol4_eq]; norm_num)
      (by simp only [vol4_eq]; norm_num) (by simp only [vol4_eq]; norm_num) (by simp only [side]; norm_num)
      (by norm_num [area4]) (by norm_num [distSq])
  · exact clear_case (1127/100) (206/25) (184/25) (1601/100) (127/50) (37/10) (81/25) (283/50) (401/100) (401/100) (by simp only [vol4_eq]; norm_num)
      (by simp only [vol4_eq]; norm_num) (by simp only [vol4_eq]; norm_num) (by simp only [side]; norm_num)
      (by norm_num [area4]) (by norm_num [distSq])
  · exact clear_case (331/50) (397/100) 10 (1601/100) (353/100) (291/100) (23/10) (401/100) (401/100) (283/50) (by simp only [vol4_eq]; norm_num)
      (by simp only [vol4_eq]; norm_num) (by simp only [vol4_eq]; norm_num) (by simp only [side]; norm_num)
      (by norm_num [area4]) (by norm_num [distSq])
  · exact clear_case (349/50) (519/50) (397/100) (1601/100) (353/100) (23/10) (76/25) (283/50) (401/100) (401/100) (by simp only [vol4_eq]; norm_num)
      (by simp only [vol4_eq]; norm_num) (by simp only [vol4_eq]; norm_num) (by simp only [side]; norm_num)
      (by norm_num [area4]) (by norm_num [distSq])
  · exact clear_case (1073/100) (1091/100) (283/50) (801/100) (311/100) (291/100) (37/10) (201/100) (112/25) (401/100) (by simp only [vol4_eq]; norm_num)
      (by simp only [vol4_eq]; norm_num) (by simp only [vol4_eq]; norm_num) (by simp only [side]; norm_num)
      (by norm_num [area4]) (by norm_num [distSq])
  · exact clear_case 10 (693/100) (1073/100) (801/100) (37/10) (291/100) (353/100) (112/25) (401/100) (201/100) (by simp only [vol4_eq]; norm_num)
      (by simp only [vol4_eq]; norm_num) (by simp only [vol4_eq]; norm_num) (by simp only [side]; norm_num)
      (by norm_num [area4]) (by norm_num [distSq])
  · exact clear_case (206/25) (143/20) (219/50) (801/100) (23/10) (127/50) (81/25) (201/100) (401/100) (112/25) (by simp only [vol4_eq]; norm_num)
      (by simp only [vol4_eq]; norm_num) (by simp only [vol4_eq]; norm_num) (by simp only [side]; norm_num)
      (by norm_num [area4]) (by norm_num [distSq])
  · exact clear_case (593/100) (349/50) (143/20) (801/100) (23/10) (81/25) (76/25) (112/25) (201/100) (401/100) (by simp only [vol4_eq]; norm_num)
      (by simp only [vol4_eq]; norm_num) (by simp only [vol4_eq]; norm_num) (by simp only [side]; norm_num)
      (by norm_num [area4]) (by norm_num [distSq])

theorem box_out : ∀ t ∈ boxTs, Clear ⟨-3/2, 2/5, -1/2⟩ ⟨1.1 * 3, 0, 0⟩ t ∧
    (∀ i j, contact ⟨-3/2, 2/5, -1/2⟩ ⟨1.1 * 3, 0, 0⟩ (i, t) ≠ some (.vertex j)) ∧
    ∀ e ∈ rim t, 1e-16 < |vol4 ⟨-3/2, 2/5, -1/2⟩ ⟨1.1 * 3, 0, 0⟩ e.1 e.2| := by
  intro t ht
  simp only [boxTs, List.mem_cons, List.not_mem_nil, or_false] at ht
  rcases ht with rfl | rfl | rfl | rfl | rfl | rfl | rfl | rfl | rfl | rfl | rfl | rfl
  · exact clear_case (158/25) (212/25) (283/50) (801/100) (377/100) (287/100) (56/25) (201/100) (401/100) (112/25) (by simp only [vol4_eq]; norm_num)
      (by simp only [vol4_eq]; norm_num) (by simp only [vol4_eq]; norm_num) (by simp only [side]; norm_num)
      (by norm_num [area4]) (by norm_num [distSq])
  · exact clear_case (219/50) (583/50) (212/25) (801/100) (377/100) (56/25) (83/25) (112/25) (201/100) (401/100) (by simp only [vol4_eq]; norm_num)
      (by simp only [vol4_eq]; norm_num) (by simp only [vol4_eq]; norm_num) (by simp only [side]; norm_num)
      (by norm_num [area4]) (by norm_num [distSq])
  · exact clear_case (1233/100) (1019/100) (693/100) (801/100) (7/2) (427/100) 3 (201/100) (112/25) (401/100) (by simp only [vol4_eq]; norm_num)
      (by simp only [vol4_eq]; norm_num) (by simp only [vol4_eq]; norm_num) (by simp only [side]; norm_num)
      (by norm_num [area4]) (by norm_num [distSq])
  · exact clear_case (707/50) (593/100) (1233/100) (801/100) 3 (427/100) (97/25) (112/25) (401/100) (201/100) (by simp only [vol4_eq]; norm_num)
      (by simp only [vol4_eq]; norm_num) (by simp only [vol4_eq]; norm_num) (by simp only [side]; norm_num)
      (by norm_num [area4]) (by norm_num [distSq])
  · exact clear_case (57/20) (158/25) (49/5) (1601/100) (287/100) (7/2) (56/25) (401/100) (283/50) (401/100) (by simp only [vol4_eq]; norm_num)
      (by simp only [vol4_eq]; norm_num) (by simp only [vol4_eq]; norm_num) (by simp only [side]; norm_num)
      (by norm_num [area4]) (by norm_num [distSq])
  · exact clear_case (1019/100) (67/10) (57/20) (1601/100) (56/25) (7/2) 3 (283/50) (401/100) (401/100) (by simp only [vol4_eq]; norm_num)
      (by simp only [vol4_eq]; norm_num) (by simp only [vol4_eq]; norm_num) (by simp only [side]; norm_num)
      (by norm_num [area4]) (by norm_num [distSq])
  · exact clear_case (583/50) (707/50) (693/50) (1601/100) (427/100) (377/100) (83/25) (401/100) (401/100) (283/50) (by simp only [vol4_eq]; norm_num)
      (by simp only [vol4_eq]; norm_num) (by simp only [vol4_eq]; norm_num) (by simp only [side]; norm_num)
      (by norm_num [area4]) (by norm_num [distSq])
  · exact clear_case (1187/100) (707/50) (707/50) (1601/100) (427/100) (83/25) (97/25) (283/50) (401/100) (401/100) (by simp only [vol4_eq]; norm_num)
      (by simp only [vol4_eq]; norm_num) (by simp only [vol4_eq]; norm_num) (by simp only [side]; norm_num)
      (by norm_num [area4]) (by norm_num [distSq])
  · exact clear_case (1281/100) (49/5) (283/50) (801/100) (287/100) (377/100) (7/2) (201/100) (112/25) (401/100) (by simp only [vol4_eq]; norm_num)
      (by simp only [vol4_eq]; norm_num) (by simp only [vol4_eq]; norm_num) (by simp only [side]; norm_num)
      (by norm_num [area4]) (by norm_num [distSq])
  · exact clear_case (693/50) (693/100) (1281/100) (801/100) (7/2) (377/100) (427/100) (112/25) (401/100) (201/100) (by simp only [vol4_eq]; norm_num)
      (by simp only [vol4_eq]; norm_num) (by simp only [vol4_eq]; norm_num) (by simp only [side]; norm_num)
      (by norm_num [area4]) (by norm_num [distSq])
  · exact clear_case (67/10) 10 (219/50) (801/100) (83/25) (56/25) 3 (201/100) (401/100) (112/25) (by simp only [vol4_eq]; norm_num)
      (by simp only [vol4_eq]; norm_num) (by simp only [vol4_eq]; norm_num) (by simp only [side]; norm_num)
      (by norm_num [area4]) (by norm_num [distSq])
  · exact clear_case (593/100) (1187/100) 10 (801/100) (83/25) 3 (97/25) (112/25) (201/100) (401/100) (by simp only [vol4_eq]; norm_num)
      (by simp only [vol4_eq]; norm_num) (by simp only [vol4_eq]; norm_num) (by simp only [side]; norm_num)
      (by norm_num [area4]) (by norm_num [distSq])

end Geo
