import Verif.Lemmas.SingleHeightMap
import Verif.Props.HeightMap
import Verif.Props.Single

/-!
# Property theorems C117: the ray query of a height map in single precision
-/

namespace Geo

open Spec

/-- C117: casting any ray on a height map in single precision is true iff casting it on the box of some positive column is, and then
reports the distance to such a column: the tree loses no column by rounding. -/
theorem C117_columns (grid : List (List ℝ)) (m n : ℕ) (res : ℝ) (hg : Rectangular grid m n) (hm : 0 < m)
    (hm' : m ≤ 2 ^ 31) (hn : n ≤ 2 ^ 31) (hres : 0 ≤ res) (h : HeightMap)
    (hh : HeightMap.fromGrid grid res = .ok h) (o d : Vec3) (t0 t1 d0 : ℝ) :
    let r := h.intersectRayF toFloat (Ray.new o d) t0 t1 d0
    let column := fun c : ℕ × ℕ =>
      (Box.new (columnLo res c) (columnHi res grid c)).intersectRayF toFloat (Ray.new o d) t0 t1 0
    (r.1 = true ↔ ∃ c : ℕ × ℕ, 0 < height grid c.1 c.2 ∧ (column c).1 = true) ∧
    (r.1 = true → ∃ c : ℕ × ℕ, 0 < height grid c.1 c.2 ∧ (column c).1 = true ∧ r.2 = (column c).2) := by
  obtain ⟨k, ⟨h1, -⟩, h2, h3⟩ := HeightMap.root_of_ok hg hm hm' hn hh
  obtain ⟨hit, D, c1, c2, c3⟩ := HNode.castF toFloat_mono (HeightMap.nested_quad (height grid) hres k 0 0) o d t0 t1
  intro r column
  have hr : r = (HeightMap.quad (height grid) res k 0 0).intersectRayF toFloat (Ray.new o d) t0 t1 d0 := by
    show h.root.intersectRayF _ _ _ _ _ = _
    rw [h3]
  rw [hr]
  constructor
  · rw [(c1 d0).1, c2]
    constructor
    · rintro ⟨l, hl, q⟩
      obtain ⟨c, hc, rfl⟩ := (HeightMap.leaf_iff hg h1 h2 l).1 hl
      exact ⟨c, hc, q⟩
    · rintro ⟨c, hc, q⟩
      exact ⟨_, (HeightMap.leaf_iff hg h1 h2 _).2 ⟨c, hc, rfl⟩, q⟩
  · intro hit'
    rw [(c1 d0).1] at hit'
    obtain ⟨l, hl, q1, q2⟩ := c3 hit'
    obtain ⟨c, hc, rfl⟩ := (HeightMap.leaf_iff hg h1 h2 l).1 hl
    exact ⟨c, hc, q1, by rw [(c1 d0).2 hit']; exact q2⟩

/-- C117, geometrically, for oblique rays. A positive column that the line of the ray is in from `a` to `b` is hit if the rounded `b`
is after the start of the range and the rounded `a` before its end. And a hit comes from a positive column that, up to a relative error
of `2^-23` of the parameter, the line is in at some parameter of the range; the distance is the rounded parameter of the entry into
this column, if the line enters it. -/
theorem C117_geometric (grid : List (List ℝ)) (m n : ℕ) (res : ℝ) (hg : Rectangular grid m n) (hm : 0 < m)
    (hm' : m ≤ 2 ^ 31) (hn : n ≤ 2 ^ 31) (hres : 0 ≤ res) (h : HeightMap)
    (hh : HeightMap.fromGrid grid res = .ok h) (o d u : Vec3) (hu : UnitAlong d u) (hw : Oblique u) (t0 t1 d0 : ℝ)
    (ht : t0 < t1) :
    let r := h.intersectRayF toFloat (Ray.new o d) t0 t1 d0
    (∀ c : ℕ × ℕ, 0 < height grid c.1 c.2 → ∀ a b,
      IsLeast {s | InBox (columnLo res c) (columnHi res grid c) (along o u s)} a →
      IsGreatest {s | InBox (columnLo res c) (columnHi res grid c) (along o u s)} b → t0 < toFloat b → toFloat a < t1 →
      r.1 = true) ∧
    (r.1 = true → ∃ c : ℕ × ℕ, 0 < height grid c.1 c.2 ∧
      (∃ s e, t0 < s ∧ s < t1 ∧ e = |s| / 2 ^ 23 ∧
        InBox ⟨(columnLo res c).x - e, (columnLo res c).y - e, (columnLo res c).z - e⟩
          ⟨(columnHi res grid c).x + e, (columnHi res grid c).y + e, (columnHi res grid c).z + e⟩ (along o u s)) ∧
      ∀ a b, IsLeast {s | InBox (columnLo res c) (columnHi res grid c) (along o u s)} a →
        IsGreatest {s | InBox (columnLo res c) (columnHi res grid c) (along o u s)} b → t0 < toFloat b ∧ r.2 = toFloat a) := by
  intro r
  obtain ⟨a1, a2⟩ := C117_columns grid m n res hg hm hm' hn hres h hh o d t0 t1 d0
  have hp : ∀ c : ℕ × ℕ, 0 < height grid c.1 c.2 → Proper (columnLo res c) (columnHi res grid c) := fun c hc =>
    ⟨mul_le_mul_of_nonneg_right (by linarith) hres, mul_le_mul_of_nonneg_right (by linarith) hres, hc.le⟩
  constructor
  · intro c hc a b ha hb h1 h2
    exact a1.2 ⟨c, hc, ((C91_box _ _ o d u t0 t1 0 (hp c hc) hu hw).1 a b ha hb).1.2 ⟨h1, h2⟩⟩
  · intro hit
    obtain ⟨c, hc, q1, q2⟩ := a2 hit
    obtain ⟨b1, b2⟩ := C91_box _ _ o d u t0 t1 0 (hp c hc) hu hw
    refine ⟨c, hc, b2 ht q1, fun a b ha hb => ?_⟩
    obtain ⟨e1, e2⟩ := b1 a b ha hb
    exact ⟨(e1.1 q1).1, q2.trans e2⟩

/-- C117: without rounding the query is that of C43. -/
theorem C117_exact (h : HeightMap) (r : Ray) (t0 t1 d0 : ℝ) :
    h.intersectRayF id r t0 t1 d0 = h.intersectRay r t0 t1 d0 := HNode.intersectRayF_id _ _ _ _ _

/-- C117 case: two columns of height 10; the ray from (-1, -2, 1) towards (1, 2, 2) is in the first one from 3 to 4.5. -/
example : ∃ h, HeightMap.fromGrid [[10], [10]] 1 = .ok h ∧ Oblique ⟨1 / 3, 2 / 3, 2 / 3⟩ ∧
    IsLeast {s | InBox (columnLo 1 (0, 0)) (columnHi 1 [[10], [10]] (0, 0)) (along ⟨-1, -2, 1⟩ ⟨1 / 3, 2 / 3, 2 / 3⟩ s)} 3 ∧
    IsGreatest {s | InBox (columnLo 1 (0, 0)) (columnHi 1 [[10], [10]] (0, 0)) (along ⟨-1, -2, 1⟩ ⟨1 / 3, 2 / 3, 2 / 3⟩ s)} 4.5 ∧
    (h.intersectRayF toFloat (Ray.new ⟨-1, -2, 1⟩ ⟨1, 2, 2⟩) 0 100 0).1 = true := by
  obtain ⟨hg, hr, e0, e1⟩ := twoColumns
  obtain ⟨h, hh⟩ := C42_returns _ 2 1 1 hg (by norm_num) hr
  have l1 : IsLeast {s | InBox (columnLo 1 (0, 0)) (columnHi 1 [[10], [10]] (0, 0))
      (along ⟨-1, -2, 1⟩ ⟨1 / 3, 2 / 3, 2 / 3⟩ s)} 3 := by
    refine ⟨by simp only [Set.mem_ofPred_eq, InBox, along, columnLo, columnHi, e0]; norm_num, fun s hs => ?_⟩
    simp only [Set.mem_ofPred_eq, InBox, along, columnLo, columnHi] at hs
    have := hs.1
    norm_num at this
    linarith
  have l2 : IsGreatest {s | InBox (columnLo 1 (0, 0)) (columnHi 1 [[10], [10]] (0, 0))
      (along ⟨-1, -2, 1⟩ ⟨1 / 3, 2 / 3, 2 / 3⟩ s)} 4.5 := by
    refine ⟨by simp only [Set.mem_ofPred_eq, InBox, along, columnLo, columnHi, e0]; norm_num, fun s hs => ?_⟩
    simp only [Set.mem_ofPred_eq, InBox, along, columnLo, columnHi] at hs
    have := hs.2.2.2.1
    norm_num at this ⊢
    linarith
  have r1 : 0 < toFloat 4.5 := by
    have := abs_le.1 (toFloat_near 4.5)
    rw [abs_of_pos (by norm_num)] at this
    norm_num at this ⊢
    linarith
  have r2 : toFloat 3 < 100 := by
    have := abs_le.1 (toFloat_near 3)
    rw [abs_of_pos (by norm_num)] at this
    norm_num at this ⊢
    linarith
  exact ⟨h, hh, unit122.2, l1, l2, (C117_geometric _ 2 1 1 hg (by norm_num) (by norm_num) (by norm_num) zero_le_one h hh _ _ _
    unit122.1 unit122.2 0 100 0 (by norm_num)).1 (0, 0) (by rw [e0]; norm_num) _ _ l1 l2 r1 r2⟩

end Geo
