import Verif.Lemmas.RoundedBox

/-! # Helper lemmas about the overlap tests of boxes in floating point arithmetic -/

namespace Geo.RoundedBox
open Spec Rounded

variable {u : ℝ} {rnd : ℝ → ℝ}

/-- Error of the computed centre of an interval. -/
theorem center_err (h : RelErr u rnd) (hu : u ≤ 1 / 1000) {lo hi m : ℝ} (h1 : |lo| ≤ m) (h2 : |hi| ≤ m) :
    |rnd (rnd (lo + hi) / 2) - (lo + hi) / 2| ≤ 2.01 * u * m := by
  have hu0 := relErr_nonneg h
  have hm : 0 ≤ m := (abs_nonneg _).trans h1
  have hs : |lo + hi| ≤ 2 * m := (abs_add_le _ _).trans (by linarith)
  obtain ⟨s, hs'⟩ : ∃ s, s = lo + hi := ⟨_, rfl⟩
  obtain ⟨t, ht⟩ : ∃ t, t = rnd s := ⟨_, rfl⟩
  rw [← hs', ← ht]
  rw [← hs'] at hs
  have a := h s
  rw [← ht] at a
  have b := h (t / 2)
  have c : u * |s| ≤ u * (2 * m) := mul_le_mul_of_nonneg_left hs hu0
  have d : |t / 2 - s / 2| ≤ u * m := by
    rw [← sub_div, abs_div, abs_two]
    linarith
  have um : u * m ≤ 0.001 * m := mul_le_mul_of_nonneg_right (by linarith) hm
  have e : |t / 2| ≤ 1.001 * m := by
    have := abs_sub_abs_le_abs_sub (t / 2) (s / 2)
    have : |s / 2| ≤ m := by rw [abs_div, abs_two]; linarith
    linarith
  have f : u * |t / 2| ≤ u * (1.001 * m) := mul_le_mul_of_nonneg_left e hu0
  have := abs_sub_le (rnd (t / 2)) (t / 2) (s / 2)
  have : 0 ≤ u * m := by positivity
  linarith

/-- Error of the computed half size of an interval. -/
theorem half_err (h : RelErr u rnd) (hu : u ≤ 1 / 1000) {lo hi m : ℝ} (h1 : |lo| ≤ m) (h2 : |hi| ≤ m) :
    |rnd (rnd (hi - lo) * 0.5) - (hi - lo) * 0.5| ≤ 2.01 * u * m := by
  have := center_err h hu (lo := -lo) (hi := hi) (m := m) (by rwa [abs_neg]) h2
  rw [show hi - lo = -lo + hi by ring, show rnd (-lo + hi) * 0.5 = rnd (-lo + hi) / 2 by ring,
    show (-lo + hi) * 0.5 = (-lo + hi) / 2 by ring]
  exact this

/-- Error of one of the three comparisons of the test of two boxes. -/
theorem gap_err (h : RelErr u rnd) (hu : u ≤ 1 / 1000) {a b c d r s m : ℝ} {a' b' r' s' : ℝ}
    (ha : |a' - a| ≤ 2.01 * u * m) (hb : |b' - b| ≤ 2.01 * u * m) (hr : |r' - r| ≤ 2.01 * u * m)
    (hs : |s' - s| ≤ 2.01 * u * m) (ba : |a| ≤ m) (bb : |b| ≤ m) (br : |r| ≤ m) (bs : |s| ≤ m)
    (hc : c = |rnd (a' - b')|) (hd : d = rnd (r' + s')) :
    |(c - d) - (|a - b| - (r + s))| ≤ 13 * u * m := by
  have hu0 := relErr_nonneg h
  have hm : 0 ≤ m := (abs_nonneg _).trans ba
  have um : u * m ≤ 0.001 * m := mul_le_mul_of_nonneg_right (by linarith) hm
  have um0 : 0 ≤ u * m := by positivity
  rw [abs_le] at ha hb hr hs ba bb br bs
  have key : ∀ x y : ℝ, |x - y| ≤ 4.02 * u * m → |y| ≤ 2 * m → |rnd x - y| ≤ 6.1 * u * m := by
    intro x y h1 h2
    have h3 := h x
    have h4 : |x| ≤ 2.01 * m := by
      have := abs_sub_abs_le_abs_sub x y
      linarith
    have h5 := mul_le_mul_of_nonneg_left h4 hu0
    have := abs_sub_le (rnd x) x y
    linarith
  have k1 := key (a' - b') (a - b) (by rw [abs_le]; constructor <;> linarith) (by rw [abs_le]; constructor <;> linarith)
  have k2 := key (r' + s') (r + s) (by rw [abs_le]; constructor <;> linarith) (by rw [abs_le]; constructor <;> linarith)
  have k3 := (abs_abs_sub_abs_le (rnd (a' - b')) (a - b)).trans k1
  rw [← hc] at k3
  rw [← hd] at k2
  rw [abs_le] at k2 k3 ⊢
  constructor <;> linarith

/-- Centre and half size of intervals: the gap. -/
theorem gap_eq (a b c d : ℝ) : |(a + b) / 2 - (c + d) / 2| - ((b - a) * 0.5 + (d - c) * 0.5) = max (c - b) (a - d) := by
  rcases le_total ((a + b) / 2) ((c + d) / 2) with h | h
  · rw [abs_of_nonpos (by linarith), max_eq_left (by linarith)]
    ring
  · rw [abs_of_nonneg (by linarith), max_eq_right (by linarith)]
    ring

theorem boxBox_iff (b o : Box) :
    (|rnd ((boxCenter rnd b).x - (boxCenter rnd o).x)| > rnd ((boxHalf rnd b).x + (boxHalf rnd o).x) ∨
      |rnd ((boxCenter rnd b).y - (boxCenter rnd o).y)| > rnd ((boxHalf rnd b).y + (boxHalf rnd o).y) ∨
      |rnd ((boxCenter rnd b).y - (boxCenter rnd o).z)| > rnd ((boxHalf rnd b).z + (boxHalf rnd o).z) →
      boxBox rnd b o = false) ∧
    (|rnd ((boxCenter rnd b).x - (boxCenter rnd o).x)| ≤ rnd ((boxHalf rnd b).x + (boxHalf rnd o).x) →
      |rnd ((boxCenter rnd b).y - (boxCenter rnd o).y)| ≤ rnd ((boxHalf rnd b).y + (boxHalf rnd o).y) →
      |rnd ((boxCenter rnd b).y - (boxCenter rnd o).z)| ≤ rnd ((boxHalf rnd b).z + (boxHalf rnd o).z) →
      boxBox rnd b o = true) := by
  unfold boxBox
  dsimp only
  split_ifs with q1 q2 q3
  · exact ⟨fun _ => rfl, fun h _ _ => absurd q1 (not_lt.2 h)⟩
  · exact ⟨fun _ => rfl, fun _ h _ => absurd q2 (not_lt.2 h)⟩
  · exact ⟨fun _ => rfl, fun _ _ h => absurd q3 (not_lt.2 h)⟩
  · exact ⟨fun h => by tauto, fun _ _ _ => rfl⟩

/-- The test of two boxes. -/
theorem box_box (h : RelErr u rnd) (hu : u ≤ 1 / 1000) {lo1 hi1 lo2 hi2 : Vec3} {m : ℝ}
    (b1 : |lo1.x| ≤ m ∧ |lo1.y| ≤ m ∧ |lo1.z| ≤ m) (b2 : |hi1.x| ≤ m ∧ |hi1.y| ≤ m ∧ |hi1.z| ≤ m)
    (b3 : |lo2.x| ≤ m ∧ |lo2.y| ≤ m ∧ |lo2.z| ≤ m) (b4 : |hi2.x| ≤ m ∧ |hi2.y| ≤ m ∧ |hi2.z| ≤ m) {gx gy gz s : ℝ}
    (hs : s = (lo1.y + hi1.y) / 2 - (lo1.z + hi1.z) / 2)
    (hx : gx = max (lo2.x - hi1.x) (lo1.x - hi2.x)) (hy : gy = max (lo2.y - hi1.y) (lo1.y - hi2.y))
    (hz : gz = max (lo2.z - (hi1.z + s)) (lo1.z + s - hi2.z)) :
    (13 * u * m < gx ∨ 13 * u * m < gy ∨ 13 * u * m < gz → boxBox rnd (Box.new lo1 hi1) (Box.new lo2 hi2) = false) ∧
    (gx ≤ -(13 * u * m) → gy ≤ -(13 * u * m) → gz ≤ -(13 * u * m) → boxBox rnd (Box.new lo1 hi1) (Box.new lo2 hi2) = true) := by
  have C : ∀ {a b : ℝ}, |a| ≤ m → |b| ≤ m → |(a + b) / 2| ≤ m := by
    intro a b ha hb
    rw [abs_le] at *
    constructor <;> linarith
  have D : ∀ {a b : ℝ}, |a| ≤ m → |b| ≤ m → |(b - a) * 0.5| ≤ m := by
    intro a b ha hb
    rw [abs_le] at *
    constructor <;> linarith
  have X := gap_err h hu (center_err h hu b1.1 b2.1) (center_err h hu b3.1 b4.1) (half_err h hu b1.1 b2.1)
    (half_err h hu b3.1 b4.1) (C b1.1 b2.1) (C b3.1 b4.1) (D b1.1 b2.1) (D b3.1 b4.1)
    (c := |rnd ((boxCenter rnd (Box.new lo1 hi1)).x - (boxCenter rnd (Box.new lo2 hi2)).x)|)
    (d := rnd ((boxHalf rnd (Box.new lo1 hi1)).x + (boxHalf rnd (Box.new lo2 hi2)).x)) rfl rfl
  have Y := gap_err h hu (center_err h hu b1.2.1 b2.2.1) (center_err h hu b3.2.1 b4.2.1) (half_err h hu b1.2.1 b2.2.1)
    (half_err h hu b3.2.1 b4.2.1) (C b1.2.1 b2.2.1) (C b3.2.1 b4.2.1) (D b1.2.1 b2.2.1) (D b3.2.1 b4.2.1)
    (c := |rnd ((boxCenter rnd (Box.new lo1 hi1)).y - (boxCenter rnd (Box.new lo2 hi2)).y)|)
    (d := rnd ((boxHalf rnd (Box.new lo1 hi1)).y + (boxHalf rnd (Box.new lo2 hi2)).y)) rfl rfl
  have Z := gap_err h hu (center_err h hu b1.2.1 b2.2.1) (center_err h hu b3.2.2 b4.2.2) (half_err h hu b1.2.2 b2.2.2)
    (half_err h hu b3.2.2 b4.2.2) (C b1.2.1 b2.2.1) (C b3.2.2 b4.2.2) (D b1.2.2 b2.2.2) (D b3.2.2 b4.2.2)
    (c := |rnd ((boxCenter rnd (Box.new lo1 hi1)).y - (boxCenter rnd (Box.new lo2 hi2)).z)|)
    (d := rnd ((boxHalf rnd (Box.new lo1 hi1)).z + (boxHalf rnd (Box.new lo2 hi2)).z)) rfl rfl
  have ez : |(lo1.y + hi1.y) / 2 - (lo2.z + hi2.z) / 2| - ((hi1.z - lo1.z) * 0.5 + (hi2.z - lo2.z) * 0.5) = gz := by
    have := gap_eq (lo1.z + s) (hi1.z + s) lo2.z hi2.z
    rw [hz, ← this, show (lo1.z + s + (hi1.z + s)) / 2 = (lo1.y + hi1.y) / 2 by rw [hs]; ring,
      show hi1.z + s - (lo1.z + s) = hi1.z - lo1.z by ring]
  rw [gap_eq, ← hx] at X
  rw [gap_eq, ← hy] at Y
  rw [ez] at Z
  rw [abs_le] at X Y Z
  obtain ⟨E1, E2⟩ := boxBox_iff (rnd := rnd) (Box.new lo1 hi1) (Box.new lo2 hi2)
  constructor
  · intro g
    refine E1 ?_
    rcases g with g | g | g
    · exact Or.inl (by linarith)
    · exact Or.inr (Or.inl (by linarith))
    · exact Or.inr (Or.inr (by linarith))
  · intro g1 g2 g3
    exact E2 (by linarith) (by linarith) (by linarith)

/-! ## Spheres -/

/-- The chosen coordinate is in the interval and nearly nearest, wherever the computed centre is. -/
theorem closest_near {lo hi c p e : ℝ} (h : lo ≤ hi) (hc : |c - (lo + hi) / 2| ≤ e) :
    let q := Box.closestCoord lo hi c p
    lo ≤ q ∧ q ≤ hi ∧ ∀ r, lo ≤ r → r ≤ hi → |p - q| ≤ |p - r| + 2 * e := by
  have he : 0 ≤ e := (abs_nonneg _).trans hc
  rw [abs_le] at hc
  unfold Box.closestCoord
  dsimp only
  split_ifs with h1 h2
  · refine ⟨h1.1.le, h1.2.le, fun r _ _ => ?_⟩
    rw [sub_self, abs_zero]
    positivity
  · refine ⟨h, le_rfl, fun r h3 h4 => ?_⟩
    by_cases hp : hi ≤ p
    · rw [abs_of_nonneg (by linarith), abs_of_nonneg (by linarith)]
      linarith
    · have h5 : p ≤ lo := by
        by_contra hcon
        exact h1 ⟨by linarith, by linarith⟩
      rw [abs_of_nonpos (by linarith), abs_of_nonpos (by linarith)]
      linarith
  · refine ⟨le_rfl, h, fun r h3 h4 => ?_⟩
    by_cases hp : p ≤ lo
    · rw [abs_of_nonpos (by linarith), abs_of_nonpos (by linarith)]
      linarith
    · have h5 : hi ≤ p := by
        by_contra hcon
        exact h1 ⟨by linarith, by linarith⟩
      rw [abs_of_nonneg (by linarith), abs_of_nonneg (by linarith)]
      linarith

/-- The computed squared distance. -/
theorem distSq_err (h : RelErr u rnd) (hu : u ≤ 1 / 1000) (p c : Vec3) :
    (1 - 5.02 * u) * distSq p c ≤ length2 rnd (sub rnd p c) ∧ length2 rnd (sub rnd p c) ≤ (1 + 5.03 * u) * distSq p c := by
  have hu0 := relErr_nonneg h
  have R : Rnd u 0 rnd := ⟨le_rfl, hu0, hu, h⟩
  have L := R.length2 (sub rnd p c)
  have sq : ∀ x : ℝ, (1 - 2 * u) * x ^ 2 ≤ rnd x * rnd x ∧ rnd x * rnd x ≤ (1 + 2.001 * u) * x ^ 2 := by
    intro x
    have h1 := h x
    have h2 : |rnd x| ≤ (1 + u) * |x| := by
      have := abs_sub_abs_le_abs_sub (rnd x) x
      linarith
    have h3 : (1 - u) * |x| ≤ |rnd x| := by
      have := abs_sub_abs_le_abs_sub x (rnd x)
      rw [abs_sub_comm] at this
      linarith
    have h4 : rnd x * rnd x = |rnd x| * |rnd x| := (abs_mul_abs_self _).symm
    rw [h4, ← sq_abs x]
    have x0 := abs_nonneg x
    have a1 := mul_le_mul h3 h3 (mul_nonneg (by linarith) x0) (abs_nonneg _)
    have a2 := mul_le_mul h2 h2 (abs_nonneg _) (mul_nonneg (by linarith) x0)
    have a3 : 0 ≤ u * u * (|x| ^ 2) := by positivity
    have a4 : u * u * (|x| ^ 2) ≤ 0.001 * u * |x| ^ 2 := mul_le_mul_of_nonneg_right (by nlinarith) (by positivity)
    constructor
    · linarith [show (1 - u) * |x| * ((1 - u) * |x|) = (1 - 2 * u) * |x| ^ 2 + u * u * |x| ^ 2 by ring]
    · linarith [show (1 + u) * |x| * ((1 + u) * |x|) = (1 + 2 * u) * |x| ^ 2 + u * u * |x| ^ 2 by ring]
  have sx := sq (p.x - c.x)
  have sy := sq (p.y - c.y)
  have sz := sq (p.z - c.z)
  obtain ⟨S, hS⟩ : ∃ S, S = distSq p c := ⟨_, rfl⟩
  have hS0 : 0 ≤ S := by rw [hS]; unfold distSq; positivity
  obtain ⟨W, hW⟩ : ∃ W, W = (sub rnd p c).length2 := ⟨_, rfl⟩
  have w1 : (1 - 2 * u) * S ≤ W := by
    rw [hS, hW]; simp only [distSq, Vec3.length2, Rounded.sub]; linarith
  have w2 : W ≤ (1 + 2.001 * u) * S := by
    rw [hS, hW]; simp only [distSq, Vec3.length2, Rounded.sub]; linarith
  rw [← hW, abs_le] at L
  rw [← hS]
  have uS : 0 ≤ u * S := by positivity
  have uuS : u * (u * S) ≤ 0.001 * (u * S) := mul_le_mul_of_nonneg_right (by linarith) uS
  have uuS0 : 0 ≤ u * (u * S) := by positivity
  have c1 := mul_le_mul_of_nonneg_left w1 (show 0 ≤ 1 - 3.01 * u by linarith)
  have c2 := mul_le_mul_of_nonneg_left w2 (show 0 ≤ 1 + 3.01 * u by linarith)
  constructor
  · linarith
  · linarith

theorem distSq_nonneg (p c : Vec3) : 0 ≤ distSq p c := by unfold distSq; positivity

/-- A sum of squares with coordinates enlarged. -/
theorem dist_enlarged {p q c : Vec3} {e : ℝ} (hx : |p.x - c.x| ≤ |p.x - q.x| + e) (hy : |p.y - c.y| ≤ |p.y - q.y| + e)
    (hz : |p.z - c.z| ≤ |p.z - q.z| + e) (he : 0 ≤ e) : Spec.dist p c ≤ Spec.dist p q + 3 * e := by
  unfold Spec.dist
  have D0 := Real.sqrt_nonneg (distSq p q)
  have DD := Real.sq_sqrt (distSq_nonneg p q)
  rw [Real.sqrt_le_left (by positivity)]
  obtain ⟨D, hD⟩ : ∃ D, D = Real.sqrt (distSq p q) := ⟨_, rfl⟩
  rw [← hD] at D0 DD ⊢
  have le : ∀ {x : ℝ}, x ^ 2 ≤ distSq p q → |x| ≤ D := fun hx => abs_le_of_sq_le_sq (by rw [DD]; exact hx) D0
  have X := le (x := p.x - q.x) (by unfold distSq; nlinarith [sq_nonneg (p.y - q.y), sq_nonneg (p.z - q.z)])
  have Y := le (x := p.y - q.y) (by unfold distSq; nlinarith [sq_nonneg (p.x - q.x), sq_nonneg (p.z - q.z)])
  have Z := le (x := p.z - q.z) (by unfold distSq; nlinarith [sq_nonneg (p.y - q.y), sq_nonneg (p.x - q.x)])
  have sq : ∀ {a b : ℝ}, |a| ≤ |b| + e → |b| ≤ D → a ^ 2 ≤ b ^ 2 + 2 * e * D + e ^ 2 := by
    intro a b h1 h2
    rw [← sq_abs a, ← sq_abs b]
    have := pow_le_pow_left₀ (abs_nonneg a) h1 2
    have := mul_le_mul_of_nonneg_left h2 he
    nlinarith
  have a := sq hx X
  have b := sq hy Y
  have c' := sq hz Z
  have e1 : distSq p c = (p.x - c.x) ^ 2 + (p.y - c.y) ^ 2 + (p.z - c.z) ^ 2 := rfl
  have e2 : D ^ 2 = (p.x - q.x) ^ 2 + (p.y - q.y) ^ 2 + (p.z - q.z) ^ 2 := DD
  rw [e1]
  nlinarith [sq_nonneg e]

/-- The test of a box and a ball. -/
theorem box_sphere (h : RelErr u rnd) (hu : u ≤ 1 / 1000) {lo hi p : Vec3} (hp : Proper lo hi) {m R : ℝ} (hR : 0 < R)
    (b1 : |lo.x| ≤ m ∧ |lo.y| ≤ m ∧ |lo.z| ≤ m) (b2 : |hi.x| ≤ m ∧ |hi.y| ≤ m ∧ |hi.z| ≤ m) :
    (boxSphere rnd (Box.new lo hi) p R = true → ∃ q, InBox lo hi q ∧ Spec.dist p q ≤ (1 + 4 * u) * R) ∧
    ((∃ q, InBox lo hi q ∧ (1 + 4 * u) * Spec.dist p q + 13 * u * m ≤ R) → boxSphere rnd (Box.new lo hi) p R = true) := by
  have hu0 := relErr_nonneg h
  have hm : 0 ≤ m := (abs_nonneg _).trans b1.1
  obtain ⟨x1, x2, x3⟩ := closest_near (p := p.x) hp.1 (center_err h hu b1.1 b2.1)
  obtain ⟨y1, y2, y3⟩ := closest_near (p := p.y) hp.2.1 (center_err h hu b1.2.1 b2.2.1)
  obtain ⟨z1, z2, z3⟩ := closest_near (p := p.z) hp.2.2 (center_err h hu b1.2.2 b2.2.2)
  obtain ⟨c, hc⟩ : ∃ c : Vec3, c = ⟨Box.closestCoord lo.x hi.x (rnd (rnd (lo.x + hi.x) / 2)) p.x,
    Box.closestCoord lo.y hi.y (rnd (rnd (lo.y + hi.y) / 2)) p.y,
    Box.closestCoord lo.z hi.z (rnd (rnd (lo.z + hi.z) / 2)) p.z⟩ := ⟨_, rfl⟩
  have hin : InBox lo hi c := by rw [hc]; exact ⟨x1, x2, y1, y2, z1, z2⟩
  have key : boxSphere rnd (Box.new lo hi) p R = true ↔ length2 rnd (sub rnd p c) ≤ rnd (R * R) := by
    unfold boxSphere
    rw [if_neg (not_le.2 hR), hc]
    simp only [boxCenter, Rounded.add, Box.new_lo, Box.new_hi, decide_eq_true_eq, ge_iff_le]
  rw [key]
  obtain ⟨d1, d2⟩ := distSq_err h hu p c
  have hRR := h (R * R)
  rw [abs_of_nonneg (mul_self_nonneg R), abs_le] at hRR
  have R2 : 0 ≤ R * R := by positivity
  have uR : 0 ≤ u * (R * R) := by positivity
  have uuR : u * (u * (R * R)) ≤ 0.001 * (u * (R * R)) := mul_le_mul_of_nonneg_right (by linarith) uR
  have uuR0 : 0 ≤ u * (u * (R * R)) := by positivity
  constructor
  · intro hh
    refine ⟨c, hin, ?_⟩
    unfold Spec.dist
    rw [Real.sqrt_le_left (by positivity)]
    have a : (1 - 5.02 * u) * distSq p c ≤ (1 + u) * (R * R) := by linarith
    have b : (1 + u) * (R * R) ≤ (1 - 5.02 * u) * ((1 + 4 * u) ^ 2 * (R * R)) := by
      have : 0 ≤ 1 - 5.02 * u := by linarith
      have e : (1 + 8 * u) * (R * R) ≤ (1 + 4 * u) ^ 2 * (R * R) := by nlinarith
      have := mul_le_mul_of_nonneg_left e this
      linarith
    have := le_of_mul_le_mul_left (a.trans b) (by linarith)
    calc distSq p c ≤ (1 + 4 * u) ^ 2 * (R * R) := this
      _ = ((1 + 4 * u) * R) ^ 2 := by ring
  · rintro ⟨q, hq, hd⟩
    obtain ⟨q1, q2, q3, q4, q5, q6⟩ := hq
    have D := dist_enlarged (p := p) (q := q) (c := c) (e := 2 * (2.01 * u * m)) (by rw [hc]; exact x3 q.x q1 q2)
      (by rw [hc]; exact y3 q.y q3 q4) (by rw [hc]; exact z3 q.z q5 q6) (by positivity)
    have D1 : (1 + 4 * u) * Spec.dist p c ≤ R := by
      have a := mul_le_mul_of_nonneg_left D (show 0 ≤ 1 + 4 * u by linarith)
      have um : 0 ≤ u * m := by positivity
      have : u * (u * m) ≤ 0.001 * (u * m) := mul_le_mul_of_nonneg_right (by linarith) um
      linarith
    have S0 := distSq_nonneg p c
    have D2 : (1 + 4 * u) ^ 2 * distSq p c ≤ R * R := by
      have a := mul_le_mul D1 D1 (mul_nonneg (by linarith) (Real.sqrt_nonneg _)) hR.le
      have b : Spec.dist p c * Spec.dist p c = distSq p c := Real.mul_self_sqrt S0
      calc (1 + 4 * u) ^ 2 * distSq p c = (1 + 4 * u) * Spec.dist p c * ((1 + 4 * u) * Spec.dist p c) := by rw [← b]; ring
        _ ≤ _ := a
    have uS : 0 ≤ u * distSq p c := by positivity
    have uuS : u * (u * distSq p c) ≤ 0.001 * (u * distSq p c) := mul_le_mul_of_nonneg_right (by linarith) uS
    have uuS0 : 0 ≤ u * (u * distSq p c) := by positivity
    have E := mul_le_mul_of_nonneg_left D2 (show 0 ≤ 1 - u by linarith)
    have uuuS : u * (u * (u * distSq p c)) ≤ 0.001 * (u * (u * distSq p c)) := mul_le_mul_of_nonneg_right (by linarith) uuS0
    linarith

/-! ## Enclosing -/

theorem abs_le_len (f : Fin 3 → ℝ) (i : Fin 3) : |f i| ≤ len f := by
  unfold len
  refine Real.abs_le_sqrt ?_
  exact Finset.single_le_sum (f := fun i => f i ^ 2) (fun j _ => sq_nonneg _) (Finset.mem_univ i)

open Matrix in
/-- The computed image of a point, coordinate by coordinate. -/
theorem apply_coord (h : RelErr u rnd) (hu : u ≤ 1 / 1000) {δ : ℝ} (hδ : δ ≤ 1 / 10) {T : Transform3}
    (hT : NearlyOrthogonal δ T.R) {p : Vec3} {ρ : ℝ} (hp : len (V p) ≤ ρ) :
    |(apply rnd T p).x - (T.apply p).x| ≤ 8 * u * (ρ + len (V T.t)) ∧
    |(apply rnd T p).y - (T.apply p).y| ≤ 8 * u * (ρ + len (V T.t)) ∧
    |(apply rnd T p).z - (T.apply p).z| ≤ 8 * u * (ρ + len (V T.t)) := by
  have hu0 := relErr_nonneg h
  have a := apply_len h hu0 hu (hT.small hδ) p
  have e : M T.R *ᵥ V p + V T.t = V (T.apply p) := by
    rw [← Chains.V_mulVec, ← Chains.V_add]; rfl
  rw [e] at a
  have b : 8 * u * (len (V p) + len (V T.t)) ≤ 8 * u * (ρ + len (V T.t)) :=
    mul_le_mul_of_nonneg_left (by linarith) (by positivity)
  exact ⟨(abs_le_len _ 0).trans (a.trans b), (abs_le_len _ 1).trans (a.trans b), (abs_le_len _ 2).trans (a.trans b)⟩

end Geo.RoundedBox
