import Verif.Lemmas.HeightMapClear
import Verif.Props.Containment
import Verif.Props.HeightMapSolid

/-!
# Containment in height maps (C104)
-/

namespace Geo

open Spec

/-- The crossing number that decides containment. -/
theorem heightMap_crossings {grid : List (List ℝ)} {m n : ℕ} {res : ℝ} (hc : Coarse grid res) (hpos : ∀ x y, 0 ≤ height grid x y) {h : HeightMap} {F WX WY : List Face}
    (s1 : soup h.mesh.points h.mesh.tris = some ((F ++ WX ++ WY).flatMap (Face.tris res)))
    (s2 : ∀ p ∈ h.mesh.points, InGrid grid m n res p) {r : ℝ} (hr : IsRadius h.mesh.points r) {p : Vec3}
    (hp : Spec.dist p ⟨0, 0, 0⟩ ≤ r) (hgp : OpenProbe ((F ++ WX ++ WY).flatMap (Face.tris res)) r p) :
    (p.y ≤ 0 ∨ p.z ≤ 0 → (((F ++ WX ++ WY).flatMap (Face.tris res)).map (crossing p ⟨1.1 * r, 0, 0⟩)).sum = 0) ∧
    (0 < p.y → 0 < p.z → p.x < 1.1 * r ∧ HeightMap.Misses res (1.1 * r) p (F ++ WX ++ WY)) := by
  have hoff : ∀ t ∈ (F ++ WX ++ WY).flatMap (Face.tris res), ¬ InTri t p := fun t ht => off_of_heron (hgp t ht).1.offFace
  have hres : 0 < res := lt_of_lt_of_le (by norm_num) hc.1
  constructor
  · intro hyz
    have hend := far_end s1 hr hp hoff
    rw [List.sum_eq_zero]
    intro k hk
    obtain ⟨t, ht, rfl⟩ := List.mem_map.1 hk
    refine HeightMap.crossing_zero (fun v hv => ?_) (hgp t ht).1.transversal (hgp t ht).2 (off_far (hend t ht)) hyz
    obtain ⟨x, y, -, -, -, ey, x', y', ez⟩ := s2 v (soup_corner_mem s1 t ht v hv)
    rw [ey, ez]
    exact ⟨mul_nonneg hres.le (Nat.cast_nonneg _), hpos x' y'⟩
  · intro hy hz
    constructor
    · have h1 := n2_le hp
      simp only [n2] at h1
      have h0 : 0 ≤ r := (Real.sqrt_nonneg _).trans hp
      have hx : p.x ≤ r := by
        by_contra k
        nlinarith [sq_nonneg p.y, sq_nonneg p.z]
      have hr0 : 0 < r := by
        rcases h0.lt_or_eq with k | k
        · exact k
        · rw [← k] at h1
          nlinarith [sq_nonneg p.x, sq_nonneg p.y, mul_pos hz hz]
      linarith
    · intro f hf
      exact ⟨fun t ht => (hgp t (List.mem_flatMap.2 ⟨f, hf, ht⟩)).2, fun t ht => hoff t (List.mem_flatMap.2 ⟨f, hf, ht⟩)⟩

/-- C104, partial: full statement: `contains` of a height map is true only for points of its columns. It holds for probes clear of
the triangles and their edges, for all grids of non-negative heights, notches included. Missing: probes within the tolerances of
the test or through edges. -/
theorem C104_sound_partial (grid : List (List ℝ)) (m n : ℕ) (res : ℝ) (hg : Rectangular grid m n) (hm : 0 < m)
    (hr : GridInRange grid m n res) (hc : Coarse grid res) (hpos : ∀ x y, 0 ≤ height grid x y) :
    ∃ h S, HeightMap.fromGrid grid res = .ok h ∧ soup h.mesh.points h.mesh.tris = some S ∧
      ∀ s : Shape, s.mesh = h.mesh → ∀ r p, IsRadius h.mesh.points r → OpenProbe S r p →
        s.contains p = .ok true → 0 < p.z ∧ ∃ c, InBox (columnLo res c) (columnHi res grid c) p := by
  classical
  obtain ⟨h, F, WX, WY, e, p1, p1', p2, p3, p4, w1, w2, s1, s2⟩ := HeightMap.fromGrid_coarse hg hm hr hc
  refine ⟨h, _, e, s1, fun s hs r p hrad hgp hcon => ?_⟩
  have hreach : Reachable s.mesh := hs ▸ HeightMap.fromGrid_reachable e
  have hres : 0 < res := lt_of_lt_of_le (by norm_num) hc.1
  by_cases hp : Spec.dist p ⟨0, 0, 0⟩ ≤ r
  · rw [HeightMap.contains_clear s hreach (hs ▸ s1) (hs ▸ hrad) hp hgp] at hcon
    have hone := of_decide_eq_true (Except.ok.inj hcon)
    obtain ⟨q1, q2⟩ := heightMap_crossings hc hpos s1 s2 hrad hp hgp
    by_cases hyz : p.y ≤ 0 ∨ p.z ≤ 0
    · rw [q1 hyz] at hone; norm_num at hone
    · rw [not_or, not_le, not_le] at hyz
      obtain ⟨hx, hM⟩ := q2 hyz.1 hyz.2
      have hsum := HeightMap.crossing_columns hg (HeightMap.coarse_separated hc) hres hx hyz.1 hyz.2 p1 p3 p4 w1 w2 hM
      rw [hone] at hsum
      refine ⟨hyz.2, ?_⟩
      by_contra hno
      have : ∑ x ∈ Finset.range m, ∑ y ∈ Finset.range n, (HeightMap.ind (HeightMap.InColumn grid res p x y) -
          ((F.countP fun f => decide (f.Covers x y) : ℕ) - 1) * HeightMap.hitZ res (1.1 * r) p x y (height grid x y)) ≤ 0 := by
        refine Finset.sum_nonpos fun x _ => Finset.sum_nonpos fun y _ => ?_
        rw [HeightMap.ind_neg fun k => hno ⟨(x, y), HeightMap.column_closed hyz.2.le k⟩]
        rcases (hpos x y).eq_or_lt with h0 | h0
        · rw [← h0, HeightMap.hitZ_zero hres hyz.1]; norm_num
        · have h1 : (1:ℝ) ≤ ((F.countP fun f => decide (f.Covers x y) : ℕ) : ℝ) := by
            obtain ⟨f, hf, hcov⟩ := p2 x y h0
            exact_mod_cast List.countP_pos_iff.2 ⟨f, hf, by simpa using hcov⟩
          have h2 : 0 ≤ HeightMap.hitZ res (1.1 * r) p x y (height grid x y) := HeightMap.ind_nonneg _
          nlinarith
      rw [← hsum] at this
      norm_num at this
  · rw [C19_beyond_partial s hreach r (hs ▸ hrad) p (not_le.1 hp)] at hcon
    exact absurd (Except.ok.inj hcon) (by decide)

/-- C104, partial: full statement: `contains` of a height map is true exactly for the points of its columns. It holds for grids
without notches, above the ground (the mesh has no floor), and for probes clear of the triangles and their edges. Missing: grids
with notches, for which it can be false (`C104_notch_wrong`); probes within the tolerances of the test or through edges. -/
theorem C104_columns_partial (grid : List (List ℝ)) (m n : ℕ) (res : ℝ) (hg : Rectangular grid m n) (hm : 0 < m)
    (hr : GridInRange grid m n res) (hc : Coarse grid res) (hpos : ∀ x y, 0 ≤ height grid x y) (hn : NoNotch grid) :
    ∃ h S, HeightMap.fromGrid grid res = .ok h ∧ soup h.mesh.points h.mesh.tris = some S ∧
      ∀ s : Shape, s.mesh = h.mesh → ∀ r p, IsRadius h.mesh.points r → OpenProbe S r p →
        ∃ b, s.contains p = .ok b ∧ (b = true ↔ 0 < p.z ∧ ∃ c, InBox (columnLo res c) (columnHi res grid c) p) := by
  classical
  obtain ⟨h, F, WX, WY, e, p1, p1', p2, p3, p4, w1, w2, s1, s2⟩ := HeightMap.fromGrid_coarse hg hm hr hc
  have hsep := HeightMap.coarse_separated hc
  refine ⟨h, _, e, s1, fun s hs r p hrad hgp => ?_⟩
  have hreach : Reachable s.mesh := hs ▸ HeightMap.fromGrid_reachable e
  have hres : 0 < res := lt_of_lt_of_le (by norm_num) hc.1
  have hopen : ∀ c, 0 < p.z → InBox (columnLo res c) (columnHi res grid c) p →
      ∃ x y, x < m ∧ y < n ∧ HeightMap.InColumn grid res p x y := fun c hz hc' =>
    HeightMap.column_open hg hres p3 p4 w1 w2 (fun f hf t ht => off_of_heron (hgp t (List.mem_flatMap.2 ⟨f, by
      rw [List.mem_append] at hf; simp only [List.mem_append]; tauto, ht⟩)).1.offFace) hz hc'
  by_cases hp : Spec.dist p ⟨0, 0, 0⟩ ≤ r
  · rw [HeightMap.contains_clear s hreach (hs ▸ s1) (hs ▸ hrad) hp hgp]
    obtain ⟨q1, q2⟩ := heightMap_crossings hc hpos s1 s2 hrad hp hgp
    by_cases hyz : p.y ≤ 0 ∨ p.z ≤ 0
    · refine ⟨false, by rw [q1 hyz]; rfl, by simp, ?_⟩
      rintro ⟨hz, c, hc'⟩
      exfalso
      obtain ⟨x, y, -, -, -, ⟨k, -⟩, -⟩ := hopen c hz hc'
      have := mul_nonneg hres.le (Nat.cast_nonneg (α := ℝ) y)
      rcases hyz with k' | k' <;> linarith
    · rw [not_or, not_le, not_le] at hyz
      obtain ⟨hx, hM⟩ := q2 hyz.1 hyz.2
      have hsum := HeightMap.crossing_columns hg hsep hres hx hyz.1 hyz.2 p1 p3 p4 w1 w2 hM
      rw [Finset.sum_congr rfl fun x _ => Finset.sum_congr rfl (g := fun y => HeightMap.ind (HeightMap.InColumn grid res p x y))
        fun y _ => ?_, HeightMap.sum_columns hres] at hsum
      · by_cases hex : ∃ x y, x < m ∧ y < n ∧ HeightMap.InColumn grid res p x y
        · rw [HeightMap.ind_pos hex] at hsum
          have : ((((F ++ WX ++ WY).flatMap (Face.tris res)).map (crossing p ⟨1.1 * r, 0, 0⟩)).sum) = 1 := by exact_mod_cast hsum
          obtain ⟨x, y, -, -, hcol⟩ := hex
          exact ⟨true, by rw [this]; rfl, fun _ => ⟨hyz.2, (x, y), HeightMap.column_closed hyz.2.le hcol⟩, fun _ => rfl⟩
        · rw [HeightMap.ind_neg hex] at hsum
          have : ((((F ++ WX ++ WY).flatMap (Face.tris res)).map (crossing p ⟨1.1 * r, 0, 0⟩)).sum) = 0 := by exact_mod_cast hsum
          exact ⟨false, by rw [this]; rfl, by simp, fun ⟨hz, c, hc'⟩ => (hex (hopen c hz hc')).elim⟩
      · rcases (hpos x y).eq_or_lt with h0 | h0
        · rw [← h0, HeightMap.hitZ_zero hres hyz.1]; ring
        · rw [HeightMap.count_one (P := fun (f : Face) c => f.Covers c.1 c.2) (c := (x, y))
            ((HeightMap.tops_disjoint hsep hn p1 p1' p2).imp fun h => h x y) (p2 x y h0)]
          norm_num
  · refine ⟨false, C19_beyond_partial s hreach r (hs ▸ hrad) p (not_le.1 hp), by simp, ?_⟩
    rintro ⟨hz, c, hc'⟩
    refine (hp ?_).elim
    obtain ⟨x, y, -, -, ⟨c1, c2⟩, ⟨c3, c4⟩, c5⟩ := hopen c hz hc'
    have h0 : 0 < height grid x y := hz.trans_le c5
    obtain ⟨f, hf, hcov⟩ := p2 x y h0
    have hgt := p1 f hf
    cases f with
    | wallX => exact hgt.elim
    | wallY => exact hgt.elim
    | top a b c d k =>
      obtain ⟨i1, i2, i3, i4⟩ := hcov
      obtain ⟨-, -, -, -, -, i6, -⟩ := HeightMap.good_top hsep hgt
      have hmem := soup_corner_mem s1 (⟨res * c, res * b, k⟩, ⟨res * c, res * d, k⟩, ⟨res * a, res * d, k⟩)
        (List.mem_flatMap.2 ⟨Face.top a b c d k, by simp [hf], by simp [Face.tris]⟩) ⟨res * c, res * d, k⟩ (by simp)
      refine le_trans ?_ (hrad.1 _ hmem)
      have ek := i6 x y i1 i2 i3 i4
      have j1 : res * (x + 1 : ℕ) ≤ res * c := mul_le_mul_of_nonneg_left (by exact_mod_cast i2) hres.le
      have j2 : res * (y + 1 : ℕ) ≤ res * d := mul_le_mul_of_nonneg_left (by exact_mod_cast i4) hres.le
      have j3 := mul_nonneg hres.le (Nat.cast_nonneg (α := ℝ) x)
      have j4 := mul_nonneg hres.le (Nat.cast_nonneg (α := ℝ) y)
      rw [Spec.dist, Spec.dist]
      refine Real.sqrt_le_sqrt ?_
      simp only [distSq]
      have l1 : p.x ^ 2 ≤ (res * c) ^ 2 := pow_le_pow_left₀ (by linarith) (by linarith) 2
      have l2 : p.y ^ 2 ≤ (res * d) ^ 2 := pow_le_pow_left₀ (by linarith) (by linarith) 2
      have l3 : p.z ^ 2 ≤ k ^ 2 := pow_le_pow_left₀ hz.le (by linarith) 2
      simp only [sub_zero]
      linarith

/-- Two cells of heights 1 and 2. -/
theorem stepGrid : Rectangular [[1], [2]] 2 1 ∧ GridInRange [[1], [2]] 2 1 1 ∧ Coarse [[1], [2]] 1 ∧
    (∀ x y, height [[1], [2]] x y = 1 ∨ height [[1], [2]] x y = 2 ∨ height [[1], [2]] x y = 0) := by
  have hg : Rectangular [[1], [2]] 2 1 := ⟨rfl, by simp⟩
  have hv : ∀ x y, height [[1], [2]] x y = 1 ∨ height [[1], [2]] x y = 2 ∨ height [[1], [2]] x y = 0 := by
    intro x y
    by_cases hx : x < 2 ∧ y < 1
    · obtain ⟨hx, hy⟩ := hx
      interval_cases x <;> interval_cases y <;> simp [height]
    · exact .inr (.inr (HeightMap.height_out hg (by omega)))
  refine ⟨hg, HeightMap.small_inRange (by norm_num) (by norm_num) (by norm_num [abs_of_pos]) ?_, ⟨by norm_num, fun x y x' y' => ?_⟩, hv⟩
  · intro row hrow v hv
    simp only [List.mem_cons, List.not_mem_nil, or_false] at hrow
    rcases hrow with rfl | rfl <;> simp only [List.mem_cons, List.not_mem_nil, or_false] at hv <;> subst hv <;>
      norm_num [abs_of_pos]
  · rcases hv x y with h | h | h <;> rcases hv x' y' with h' | h' | h' <;> rw [h, h'] <;> norm_num [abs_of_pos]

/-- C104 case: two cells of heights 1 and 2, and probes from a point in the first column, which runs through both columns, and from
one above it, which enters the second column through its side. -/
example : Rectangular [[1], [2]] 2 1 ∧ GridInRange [[1], [2]] 2 1 1 ∧ Coarse [[1], [2]] 1 ∧ NoNotch [[1], [2]] ∧
    (∀ x y, 0 ≤ height [[1], [2]] x y) ∧
    ∃ h S, HeightMap.fromGrid [[1], [2]] 1 = .ok h ∧ soup h.mesh.points h.mesh.tris = some S ∧ IsRadius h.mesh.points 3 ∧
      OpenProbe S 3 ⟨3 / 10, 3 / 5, 2 / 5⟩ ∧ InBox (columnLo 1 (0, 0)) (columnHi 1 [[1], [2]] (0, 0)) ⟨3 / 10, 3 / 5, 2 / 5⟩ ∧
      OpenProbe S 3 ⟨1 / 2, 1 / 2, 3 / 2⟩ := by
  obtain ⟨hg, hr, hc, hv⟩ := stepGrid
  refine ⟨hg, hr, hc, ?_, fun x y => by rcases hv x y with h | h | h <;> rw [h] <;> norm_num, ?_⟩
  · intro x y z hz h1 h2
    rw [HeightMap.height_out hg (.inr (by omega))] at h2
    linarith
  obtain ⟨h, F, WX, WY, e, p1, -, p2, p3, p4, w1, w2, s1, s2⟩ := HeightMap.fromGrid_coarse hg (by norm_num) hr hc
  have hmem : ∀ f ∈ F ++ WX ++ WY, f ∈ HeightMap.stepFaces := by
    intro f hf
    rw [List.mem_append, List.mem_append] at hf
    rcases hf with (hf | hf) | hf
    · exact HeightMap.step_tops (p1 f hf)
    · exact HeightMap.step_wallsX (p3 f hf) (w1.1 f hf)
    · exact HeightMap.step_wallsY (p4 f hf) (w2.1 f hf)
  have e9 : Real.sqrt 9 = 3 := by rw [show (9:ℝ) = 3 ^ 2 by norm_num]; exact Real.sqrt_sq (by norm_num)
  refine ⟨h, _, e, s1, ⟨?_, .inl ⟨⟨2, 1, 2⟩, ?_, ?_⟩⟩, ?_, ?_, ?_⟩
  · intro p hp
    obtain ⟨x, y, hx, hy, ex, ey, x', y', ez⟩ := s2 p hp
    rw [Spec.dist, Real.sqrt_le_left (by norm_num)]
    simp only [distSq, ex, ey, ez]
    rcases hv x' y' with k | k | k <;> rw [k] <;> interval_cases x <;> interval_cases y <;> norm_num
  · obtain ⟨f, hf, hcov⟩ := p2 1 0 (by norm_num [height])
    have hft := HeightMap.step_tops (p1 f hf)
    simp only [HeightMap.stepFaces, List.mem_cons, List.not_mem_nil, or_false] at hft
    rcases hft with rfl | rfl | rfl | rfl | rfl | rfl | rfl | rfl | rfl <;> simp only [Face.Covers] at hcov
    · omega
    · exact soup_corner_mem s1 (⟨2, 0, 2⟩, ⟨2, 1, 2⟩, ⟨1, 1, 2⟩)
        (List.mem_flatMap.2 ⟨_, by simp only [List.mem_append]; exact .inl (.inl hf), by simp [Face.tris]⟩) _ (by simp)
  · rw [← e9, Spec.dist]; congr 1; simp only [distSq]; norm_num
  · intro t ht
    obtain ⟨f, hf, ht⟩ := List.mem_flatMap.1 ht
    rw [show (1.1 * 3 : ℝ) = 33 / 10 by norm_num]
    exact HeightMap.step_clear1 f (hmem f hf) t ht
  · simp [InBox, columnLo, columnHi, height]; norm_num
  · intro t ht
    obtain ⟨f, hf, ht⟩ := List.mem_flatMap.1 ht
    rw [show (1.1 * 3 : ℝ) = 33 / 10 by norm_num]
    exact HeightMap.step_clear2 f (hmem f hf) t ht

/-- C104 is violated by the code: next to an L of three equal cells, whose corner cell is covered twice, a probe that leaves a
column and enters the corner cell through its top counts two entries, and the point of the column is reported as outside. -/
theorem C104_notch_wrong : ∃ h, HeightMap.fromGrid [[0, 1, 9 / 4], [1, 1, 9 / 4]] 1 = .ok h ∧
    (∀ s : Shape, s.mesh = h.mesh → s.contains ⟨1 / 2, 11 / 5, 13 / 10⟩ = .ok false) ∧
    InBox (columnLo 1 (0, 2)) (columnHi 1 [[0, 1, 9 / 4], [1, 1, 9 / 4]] (0, 2)) ⟨1 / 2, 11 / 5, 13 / 10⟩ := by
  classical
  have hg : Rectangular [[0, 1, 9 / 4], [1, 1, 9 / 4]] 2 3 := ⟨rfl, by simp⟩
  have hv : ∀ x y, height [[0, 1, 9 / 4], [1, 1, 9 / 4]] x y = 1 ∨ height [[0, 1, 9 / 4], [1, 1, 9 / 4]] x y = 9 / 4 ∨
      height [[0, 1, 9 / 4], [1, 1, 9 / 4]] x y = 0 := by
    intro x y
    by_cases hx : x < 2 ∧ y < 3
    · obtain ⟨hx, hy⟩ := hx
      interval_cases x <;> interval_cases y <;> simp [height]
    · exact .inr (.inr (HeightMap.height_out hg (by omega)))
  have hpos : ∀ x y, 0 ≤ height [[0, 1, 9 / 4], [1, 1, 9 / 4]] x y := fun x y => by
    rcases hv x y with h | h | h <;> rw [h] <;> norm_num
  have hr : GridInRange [[0, 1, 9 / 4], [1, 1, 9 / 4]] 2 3 1 := by
    refine HeightMap.small_inRange (by norm_num) (by norm_num) (by norm_num [abs_of_pos]) ?_
    intro row hrow v hv
    simp only [List.mem_cons, List.not_mem_nil, or_false] at hrow
    rcases hrow with rfl | rfl <;> simp only [List.mem_cons, List.not_mem_nil, or_false] at hv <;>
      rcases hv with rfl | rfl | rfl <;> norm_num [abs_of_pos]
  have hc : Coarse [[0, 1, 9 / 4], [1, 1, 9 / 4]] 1 := by
    refine ⟨by norm_num, fun x y x' y' => ?_⟩
    rcases hv x y with h | h | h <;> rcases hv x' y' with h' | h' | h' <;> rw [h, h'] <;> norm_num [abs_of_pos, abs_of_neg]
  obtain ⟨h, F, WX, WY, e, p1, -, p2, p3, p4, w1, w2, s1, s2⟩ := HeightMap.fromGrid_coarse hg (by norm_num) hr hc
  have hmem : ∀ f ∈ F ++ WX ++ WY, f ∈ HeightMap.notchFaces := by
    intro f hf
    rw [List.mem_append, List.mem_append] at hf
    rcases hf with (hf | hf) | hf
    · exact HeightMap.notch_tops (p1 f hf)
    · exact HeightMap.notch_wallsX (p3 f hf) (w1.1 f hf)
    · exact HeightMap.notch_wallsY (p4 f hf) (w2.1 f hf)
  have cover : ∀ x y, 0 < height [[0, 1, 9 / 4], [1, 1, 9 / 4]] x y → ∃ f ∈ F, f.Covers x y ∧
      (f = .top 0 1 2 2 1 ∨ f = .top 0 2 2 3 (9 / 4) ∨ f = .top 1 0 2 2 1 ∨ f = .top 1 1 2 2 1 ∨ f = .top 1 2 2 3 (9 / 4)) := by
    intro x y hxy
    obtain ⟨f, hf, hcov⟩ := p2 x y hxy
    refine ⟨f, hf, hcov, ?_⟩
    have hft := HeightMap.notch_tops (p1 f hf)
    simp only [HeightMap.notchFaces, List.mem_cons, List.not_mem_nil, or_false] at hft
    cases f with
    | wallX => exact hcov.elim
    | wallY => exact hcov.elim
    | top => simpa using hft
  have t1 : Face.top 0 1 2 2 1 ∈ F := by
    obtain ⟨f, hf, hcov, k⟩ := cover 0 1 (by norm_num [height])
    rcases k with rfl | rfl | rfl | rfl | rfl
    · exact hf
    all_goals simp only [Face.Covers] at hcov; omega
  have t2 : Face.top 1 0 2 2 1 ∈ F := by
    obtain ⟨f, hf, hcov, k⟩ := cover 1 0 (by norm_num [height])
    rcases k with rfl | rfl | rfl | rfl | rfl
    rotate_left 2
    · exact hf
    all_goals simp only [Face.Covers] at hcov; omega
  have hrad : IsRadius h.mesh.points (17 / 4) := by
    constructor
    · intro p hp
      obtain ⟨x, y, hx, hy, ex, ey, x', y', ez⟩ := s2 p hp
      rw [Spec.dist, Real.sqrt_le_left (by norm_num)]
      simp only [distSq, ex, ey, ez]
      rcases hv x' y' with k | k | k <;> rw [k] <;> interval_cases x <;> interval_cases y <;> norm_num
    · refine .inl ⟨⟨2, 3, 9 / 4⟩, ?_, ?_⟩
      · obtain ⟨f, hf, hcov, k⟩ := cover 1 2 (by norm_num [height])
        rcases k with rfl | rfl | rfl | rfl | rfl
        · simp only [Face.Covers] at hcov; omega
        · exact soup_corner_mem s1 (⟨2, 2, 9 / 4⟩, ⟨2, 3, 9 / 4⟩, ⟨0, 3, 9 / 4⟩)
            (List.mem_flatMap.2 ⟨_, by simp only [List.mem_append]; exact .inl (.inl hf), by simp [Face.tris]⟩) _ (by simp)
        · simp only [Face.Covers] at hcov; omega
        · simp only [Face.Covers] at hcov; omega
        · exact soup_corner_mem s1 (⟨2, 2, 9 / 4⟩, ⟨2, 3, 9 / 4⟩, ⟨1, 3, 9 / 4⟩)
            (List.mem_flatMap.2 ⟨_, by simp only [List.mem_append]; exact .inl (.inl hf), by simp [Face.tris]⟩) _ (by simp)
      · rw [Spec.dist, show distSq ⟨2, 3, 9 / 4⟩ ⟨0, 0, 0⟩ = (17 / 4) ^ 2 by simp only [distSq]; norm_num]
        exact Real.sqrt_sq (by norm_num)
  have hclear : OpenProbe ((F ++ WX ++ WY).flatMap (Face.tris 1)) (17 / 4) ⟨1 / 2, 11 / 5, 13 / 10⟩ := by
    intro t ht
    obtain ⟨f, hf, ht⟩ := List.mem_flatMap.1 ht
    rw [show (1.1 * (17 / 4) : ℝ) = 187 / 40 by norm_num]
    exact HeightMap.notch_clear f (hmem f hf) t ht
  have hp : Spec.dist ⟨1 / 2, 11 / 5, 13 / 10⟩ ⟨0, 0, 0⟩ ≤ 17 / 4 := by
    rw [Spec.dist, Real.sqrt_le_left (by norm_num)]; simp only [distSq]; norm_num
  refine ⟨h, e, fun s hs => ?_, by simp [InBox, columnLo, columnHi, height]; norm_num⟩
  rw [HeightMap.contains_clear s (hs ▸ HeightMap.fromGrid_reachable e) (hs ▸ s1) (hs ▸ hrad) hp hclear]
  congr 1
  rw [decide_eq_false_iff_not]
  intro hone
  obtain ⟨hx, hM⟩ := (heightMap_crossings hc hpos s1 s2 hrad hp hclear).2 (by norm_num) (by norm_num)
  have hsum := HeightMap.crossing_columns hg (HeightMap.coarse_separated hc) (by norm_num) hx (by norm_num) (by norm_num)
    p1 p3 p4 w1 w2 hM
  rw [hone] at hsum
  have hle : ∀ x y, 0 ≤ (((F.countP fun f => decide (f.Covers x y) : ℕ) : ℝ) - 1) *
      HeightMap.hitZ 1 (1.1 * (17 / 4)) ⟨1 / 2, 11 / 5, 13 / 10⟩ x y (height [[0, 1, 9 / 4], [1, 1, 9 / 4]] x y) := by
    intro x y
    rcases (hpos x y).eq_or_lt with h0 | h0
    · rw [← h0, HeightMap.hitZ_zero (by norm_num) (by norm_num)]; norm_num
    · have h1 : (1:ℝ) ≤ ((F.countP fun f => decide (f.Covers x y) : ℕ) : ℝ) := by
        obtain ⟨f, hf, hcov⟩ := p2 x y h0
        exact_mod_cast List.countP_pos_iff.2 ⟨f, hf, by simpa using hcov⟩
      exact mul_nonneg (by linarith) (HeightMap.ind_nonneg _)
  have h2 : (2:ℝ) ≤ ((F.countP fun f => decide (f.Covers 1 1) : ℕ) : ℝ) := by
    have hnd : [Face.top 1 0 2 2 1, Face.top 0 1 2 2 1].Nodup := by simp
    have hsub : [Face.top 1 0 2 2 1, Face.top 0 1 2 2 1] ⊆ F.filter fun f => decide (f.Covers 1 1) := by
      intro f hf'
      simp only [List.mem_cons, List.not_mem_nil, or_false] at hf'
      rw [List.mem_filter]
      rcases hf' with rfl | rfl
      · exact ⟨t2, by simp [Face.Covers]⟩
      · exact ⟨t1, by simp [Face.Covers]⟩
    have := (List.subperm_of_subset hnd hsub).length_le
    rw [← List.countP_eq_length_filter] at this
    exact_mod_cast this
  have hhit : HeightMap.hitZ 1 (1.1 * (17 / 4)) ⟨1 / 2, 11 / 5, 13 / 10⟩ 1 1 (height [[0, 1, 9 / 4], [1, 1, 9 / 4]] 1 1) = 1 := by
    refine HeightMap.ind_pos ?_
    simp only [HeightMap.tx, HeightMap.ty, HeightMap.tz, height]
    norm_num
  have h11 := hle 1 1
  rw [hhit] at h11
  have hcols := HeightMap.sum_columns (res := 1) (by norm_num) ⟨1 / 2, 11 / 5, 13 / 10⟩ [[0, 1, 9 / 4], [1, 1, 9 / 4]] 2 3
  have hone' : HeightMap.ind (∃ x y, x < 2 ∧ y < 3 ∧ HeightMap.InColumn [[0, 1, 9 / 4], [1, 1, 9 / 4]] 1 ⟨1 / 2, 11 / 5, 13 / 10⟩ x y) ≤ 1 := by
    unfold HeightMap.ind; split_ifs <;> norm_num
  simp only [Finset.sum_range_succ, Finset.sum_range_zero, zero_add] at hsum hcols
  have a1 := hle 0 0
  have a2 := hle 0 1
  have a3 := hle 0 2
  have a4 := hle 1 0
  have a5 := hle 1 2
  rw [hhit] at hsum
  push_cast at hsum
  linarith

end Geo
