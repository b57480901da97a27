import Verif.Props.HeightMap
import Verif.Lemmas.HeightMapTops

/-!
# Properties of the mesh of a height map as a solid (C75, C103)
-/

namespace Geo

open Spec

/-! ## C75 -/

/-- C75, partial: full statement as in `C75_tops_disjoint_partial`. For grids whose heights differ by more than the tolerance
and that have no notch (see `NoNotch`), no cell is covered by two top rectangles. Missing: grids with notches, for which it
can be false (`C75_tops_disjoint_wrong`). -/
theorem C75_no_notch_partial (grid : List (List ℝ)) (m n : ℕ) (res : ℝ) (hg : Rectangular grid m n) (hm : 0 < m)
    (hr : GridInRange grid m n res) (hs : Separated grid) (hn : NoNotch grid) :
    ∃ (h : HeightMap) (tops walls : List Face) (S : List (Vec3 × Vec3 × Vec3)),
      HeightMap.fromGrid grid res = .ok h ∧
      (∀ f ∈ tops, GoodTop grid m n f) ∧ (∀ x y, 0 < height grid x y → ∃ f ∈ tops, f.Covers x y) ∧
      tops.Pairwise (fun f g => ∀ x y, ¬ (f.Covers x y ∧ g.Covers x y)) ∧
      (∀ f ∈ walls, WallXIn grid m n f ∨ WallYIn grid m n f) ∧
      soup h.mesh.points h.mesh.tris = some S ∧
      List.Forall₂ (fun c c' => SameCell3 c.1 c'.1 ∧ SameCell3 c.2.1 c'.2.1 ∧ SameCell3 c.2.2 c'.2.2)
        ((tops ++ walls).flatMap (Face.tris res)) S := by
  obtain ⟨h, F, WX, WY, S, e, ⟨p1, p1'⟩, p2, p3, p4, -, s1, s2, s3⟩ := HeightMap.fromGrid_ok hg hm hr
  refine ⟨h, F, WX ++ WY, S, e, p1, p2, HeightMap.tops_disjoint hs hn p1 p1' p2, ?_, s1,
    by rw [← List.append_assoc]; exact s2⟩
  intro f hf
  rw [List.mem_append] at hf
  exact hf.imp (p3 f) (p4 f)

/-- Three cells around a corner that opens towards larger x. -/
theorem hook : Rectangular [[1, 1], [1, 3]] 2 2 ∧ GridInRange [[1, 1], [1, 3]] 2 2 1 ∧
    height [[1, 1], [1, 3]] 0 0 = 1 ∧ height [[1, 1], [1, 3]] 0 1 = 1 ∧ height [[1, 1], [1, 3]] 1 0 = 1 ∧
    height [[1, 1], [1, 3]] 1 1 = 3 := by
  refine ⟨⟨rfl, by simp⟩, HeightMap.small_inRange (by norm_num) (by norm_num) (by norm_num [abs_of_pos]) ?_, by simp [height],
    by simp [height], by simp [height], by simp [height]⟩
  intro row hrow v hv
  simp only [List.mem_cons, List.not_mem_nil, or_false] at hrow
  rcases hrow with rfl | rfl <;> simp only [List.mem_cons, List.not_mem_nil, or_false, or_self] at hv
  · subst hv; norm_num [abs_of_pos]
  · rcases hv with rfl | rfl <;> norm_num [abs_of_pos]

/-- The heights of the corner are far apart. -/
theorem hook_coarse : Coarse [[1, 1], [1, 3]] 1 := by
  obtain ⟨hg, -, e0, e1, e2, e3⟩ := hook
  have hv : ∀ x y, height [[1, 1], [1, 3]] x y = 1 ∨ height [[1, 1], [1, 3]] x y = 3 ∨ height [[1, 1], [1, 3]] x y = 0 := by
    intro x y
    by_cases hx : x < 2 ∧ y < 2
    · obtain ⟨hx, hy⟩ := hx
      interval_cases x <;> interval_cases y <;> simp [e0, e1, e2, e3]
    · exact .inr (.inr (HeightMap.height_out hg (by omega)))
  refine ⟨by norm_num, fun x y x' y' => ?_⟩
  rcases hv x y with h | h | h <;> rcases hv x' y' with h' | h' | h' <;> rw [h, h'] <;> norm_num [abs_of_pos]

theorem hook_no_notch : NoNotch [[1, 1], [1, 3]] := by
  obtain ⟨hg, -, e0, e1, e2, e3⟩ := hook
  intro x y h h0 h1 h2
  by_cases hx : x + 1 < 2 ∧ y + 1 < 2
  · obtain rfl : x = 0 := by omega
    obtain rfl : y = 0 := by omega
    rw [e0, e1]
  · rw [HeightMap.height_out hg (by omega)] at h2
    exact absurd h2 h0.ne

/-- C75 case: an L of three equal cells, with the corner on the other side than in `C75_tops_disjoint_wrong`. -/
example : Rectangular [[1, 1], [1, 3]] 2 2 ∧ GridInRange [[1, 1], [1, 3]] 2 2 1 ∧ Separated [[1, 1], [1, 3]] ∧
    NoNotch [[1, 1], [1, 3]] ∧ ¬ NoNotch [[2, 1], [1, 1]] := by
  refine ⟨hook.1, hook.2.1, HeightMap.coarse_separated hook_coarse, hook_no_notch, fun h => ?_⟩
  obtain ⟨-, -, e0, e1, e2, e3⟩ := lShape
  have := (h 0 0 1 one_pos e2 e3).2 e1
  rw [e0] at this
  norm_num at this

/-! ## C103 -/

/-- C103: the volume enclosed by the mesh of a grid of non-negative heights and the ground plane is at least that of the
columns. -/
theorem C103_at_least (grid : List (List ℝ)) (m n : ℕ) (res : ℝ) (hg : Rectangular grid m n) (hm : 0 < m)
    (hr : GridInRange grid m n res) (hc : Coarse grid res) (hpos : ∀ x y, 0 ≤ height grid x y) :
    ∃ h S, HeightMap.fromGrid grid res = .ok h ∧ soup h.mesh.points h.mesh.tris = some S ∧
      6 * columnsVolume grid m n res ≤ (S.map vol6).sum := by
  classical
  obtain ⟨h, F, WX, WY, e, p1, p1', p2, p3, p4, w1, w2, s1, -⟩ := HeightMap.fromGrid_coarse hg hm hr hc
  refine ⟨h, _, e, s1, ?_⟩
  rw [HeightMap.sum_flatMap, List.map_append, List.map_append, List.sum_append, List.sum_append,
    HeightMap.vol_wallsX hg res p3 w1, HeightMap.vol_wallsY hg res p4 w2, HeightMap.vol_tops (HeightMap.coarse_separated hc) res p1]
  have : 2 * columnsVolume grid m n res ≤ ∑ x ∈ Finset.range m, ∑ y ∈ Finset.range n,
      2 * ((F.countP fun f => decide (f.Covers x y) : ℕ) : ℝ) * (res * res * height grid x y) := by
    unfold columnsVolume
    rw [Finset.mul_sum]
    refine Finset.sum_le_sum fun x _ => ?_
    rw [Finset.mul_sum]
    refine Finset.sum_le_sum fun y _ => ?_
    rcases (hpos x y).eq_or_lt with h0 | h0
    · rw [← h0]; simp
    · have h1 : (1:ℝ) ≤ ((F.countP fun f => decide (f.Covers x y) : ℕ) : ℝ) := by
        obtain ⟨f, hf, hcov⟩ := p2 x y h0
        exact_mod_cast List.countP_pos_iff.2 ⟨f, hf, by simpa using hcov⟩
      have h2 : 0 ≤ res * res * height grid x y := mul_nonneg (mul_self_nonneg _) h0.le
      nlinarith
  linarith

/-- C103, partial: full statement: the volume enclosed by the mesh and the ground plane is that of the columns. It holds for
grids without notches. Missing: grids with notches, for which the volume can be larger (`C103_volume_wrong`). -/
theorem C103_volume_partial (grid : List (List ℝ)) (m n : ℕ) (res : ℝ) (hg : Rectangular grid m n) (hm : 0 < m)
    (hr : GridInRange grid m n res) (hc : Coarse grid res) (hpos : ∀ x y, 0 ≤ height grid x y) (hn : NoNotch grid) :
    ∃ h S, HeightMap.fromGrid grid res = .ok h ∧ soup h.mesh.points h.mesh.tris = some S ∧
      (S.map vol6).sum = 6 * columnsVolume grid m n res := by
  classical
  obtain ⟨h, F, WX, WY, e, p1, p1', p2, p3, p4, w1, w2, s1, -⟩ := HeightMap.fromGrid_coarse hg hm hr hc
  have hs := HeightMap.coarse_separated hc
  refine ⟨h, _, e, s1, ?_⟩
  rw [HeightMap.sum_flatMap, List.map_append, List.map_append, List.sum_append, List.sum_append,
    HeightMap.vol_wallsX hg res p3 w1, HeightMap.vol_wallsY hg res p4 w2, HeightMap.vol_tops hs res p1]
  have : ∑ x ∈ Finset.range m, ∑ y ∈ Finset.range n,
      2 * ((F.countP fun f => decide (f.Covers x y) : ℕ) : ℝ) * (res * res * height grid x y) =
      2 * columnsVolume grid m n res := by
    unfold columnsVolume
    rw [Finset.mul_sum]
    refine Finset.sum_congr rfl fun x _ => ?_
    rw [Finset.mul_sum]
    refine Finset.sum_congr rfl fun y _ => ?_
    rcases (hpos x y).eq_or_lt with h0 | h0
    · rw [← h0]; simp
    · rw [HeightMap.count_one (P := fun (f : Face) c => f.Covers c.1 c.2) (c := (x, y))
        ((HeightMap.tops_disjoint hs hn p1 p1' p2).imp fun h => h x y) (p2 x y h0)]
      simp
  rw [this]
  ring

/-- C103 case. -/
example : Rectangular [[1, 1], [1, 3]] 2 2 ∧ GridInRange [[1, 1], [1, 3]] 2 2 1 ∧ Coarse [[1, 1], [1, 3]] 1 ∧
    NoNotch [[1, 1], [1, 3]] ∧ columnsVolume [[1, 1], [1, 3]] 2 2 1 = 6 := by
  obtain ⟨hg, hr, e0, e1, e2, e3⟩ := hook
  refine ⟨hg, hr, hook_coarse, hook_no_notch, ?_⟩
  simp only [columnsVolume, Finset.sum_range_succ, Finset.sum_range_zero, e0, e1, e2, e3]
  norm_num

/-- C103 is violated by the code: for an L of three equal cells the surface covers a cell twice, and the volume is too large. -/
theorem C103_volume_wrong : ∃ h S, HeightMap.fromGrid [[2, 1], [1, 1]] 1 = .ok h ∧
    soup h.mesh.points h.mesh.tris = some S ∧ columnsVolume [[2, 1], [1, 1]] 2 2 1 = 5 ∧ 32 ≤ (S.map vol6).sum := by
  classical
  obtain ⟨hg, hr, e0, e1, e2, e3⟩ := lShape
  have hc : Coarse [[2, 1], [1, 1]] 1 := by
    have hv : ∀ x y, height [[2, 1], [1, 1]] x y = 1 ∨ height [[2, 1], [1, 1]] x y = 2 ∨ height [[2, 1], [1, 1]] x y = 0 := by
      intro x y
      by_cases hx : x < 2 ∧ y < 2
      · obtain ⟨hx, hy⟩ := hx
        interval_cases x <;> interval_cases y <;> simp [e0, e1, e2, e3]
      · exact .inr (.inr (HeightMap.height_out hg (by omega)))
    refine ⟨by norm_num, fun x y x' y' => ?_⟩
    rcases hv x y with h | h | h <;> rcases hv x' y' with h' | h' | h' <;> rw [h, h'] <;> norm_num [abs_of_pos]
  obtain ⟨h, F, WX, WY, e, p1, p1', p2, p3, p4, w1, w2, s1, -⟩ := HeightMap.fromGrid_coarse hg (by norm_num) hr hc
  have hV : columnsVolume [[2, 1], [1, 1]] 2 2 1 = 5 := by
    simp only [columnsVolume, Finset.sum_range_succ, Finset.sum_range_zero, e0, e1, e2, e3]
    norm_num
  refine ⟨h, _, e, s1, hV, ?_⟩
  rw [HeightMap.sum_flatMap, List.map_append, List.map_append, List.sum_append, List.sum_append,
    HeightMap.vol_wallsX hg 1 p3 w1, HeightMap.vol_wallsY hg 1 p4 w2, HeightMap.vol_tops (HeightMap.coarse_separated hc) 1 p1, hV]
  have k1 : ∀ x y, 0 < height [[2, 1], [1, 1]] x y → (1:ℝ) ≤ ((F.countP fun f => decide (f.Covers x y) : ℕ) : ℝ) := by
    intro x y h0
    obtain ⟨f, hf, hcov⟩ := p2 x y h0
    exact_mod_cast List.countP_pos_iff.2 ⟨f, hf, by simpa using hcov⟩
  have k2 : (2:ℝ) ≤ ((F.countP fun f => decide (f.Covers 1 1) : ℕ) : ℝ) := by
    obtain ⟨hf, hg'⟩ := lShape_tops p1 p2
    have hnd : [Face.top 1 0 2 2 1, Face.top 0 1 2 2 1].Nodup := by simp
    have hsub : [Face.top 1 0 2 2 1, Face.top 0 1 2 2 1] ⊆ F.filter fun f => decide (f.Covers 1 1) := by
      intro f hf'
      simp only [List.mem_cons, List.not_mem_nil, or_false] at hf'
      rw [List.mem_filter]
      rcases hf' with rfl | rfl
      · exact ⟨hf, by simp [Face.Covers]⟩
      · exact ⟨hg', by simp [Face.Covers]⟩
    have := (List.subperm_of_subset hnd hsub).length_le
    rw [← List.countP_eq_length_filter] at this
    exact_mod_cast this
  simp only [Finset.sum_range_succ, Finset.sum_range_zero, e0, e1, e2, e3]
  have a := k1 0 0 (by rw [e0]; norm_num)
  have b := k1 0 1 (by rw [e1]; norm_num)
  have c := k1 1 0 (by rw [e2]; norm_num)
  linarith

end Geo
