import Verif.Lemmas.RoundedNormalize
import Verif.Props.Rounded

/-!
# C133: normalisation in floating point arithmetic
-/

namespace Geo
open Spec RoundedNormalize Matrix

variable {u : ℝ} {rnd : ℝ → ℝ}

/-- C133. Without rounding the functions are those of `Model/Math`. -/
theorem C133_exact (a : Vec2) (d : Vec3) (q : Quat) (m : Mat3) :
    length2D id a = a.length ∧ normalized2D id a = a.normalized ∧ Rounded.length id d = d.length ∧
    Rounded.normalized id d = d.normalized ∧ quatLength id q = q.length ∧ quatNormalized id q = q.normalized ∧
    matNormalize id m = m.normalize ∧ matNormalized id m = m.normalized :=
  ⟨rfl, rfl, rfl, rfl, rfl, rfl, rfl, rfl⟩

/-- C133. Vectors in the plane: length, direction, and length of the result. -/
theorem C133_plane (h : RelErr u rnd) (hu : u ≤ 1 / 1000) {a e : Vec2} {l : ℝ} (he : e.x ^ 2 + e.y ^ 2 = 1) (hl : 0 < l)
    (hx : a.x = l * e.x) (hy : a.y = l * e.y) :
    |length2D rnd a - l| ≤ 2.1 * u * l ∧
    |(normalized2D rnd a).x - e.x| ≤ 3.2 * u * |e.x| ∧ |(normalized2D rnd a).y - e.y| ≤ 3.2 * u * |e.y| ∧
    |(normalized2D rnd a).x ^ 2 + (normalized2D rnd a).y ^ 2 - 1| ≤ 6.5 * u := by
  have hu0 := Rounded.relErr_nonneg h
  have s := add_sq h hu (x := a.y) le_rfl (by norm_num) (sq_nonneg _) (first_sq h a.x)
  rw [show a.x ^ 2 + a.y ^ 2 = l ^ 2 by rw [hx, hy]; linear_combination l ^ 2 * he] at s
  obtain ⟨p, c⟩ := divide h hu hl (by norm_num) (by norm_num) s
  have cx := c e.x
  have cy := c e.y
  rw [← hx] at cx
  rw [← hy] at cy
  have ul : 0 ≤ u * l := by positivity
  have ux : 0 ≤ u * |e.x| := by positivity
  have uy : 0 ≤ u * |e.y| := by positivity
  have dx : |(normalized2D rnd a).x - e.x| ≤ 3.2 * u * |e.x| := cx.trans (by linarith)
  have dy : |(normalized2D rnd a).y - e.y| ≤ 3.2 * u * |e.y| := cy.trans (by linarith)
  refine ⟨p.trans (by linarith), dx, dy, ?_⟩
  have qx := abs_le.1 (sq_err hu0 hu (by norm_num) (by norm_num) dx)
  have qy := abs_le.1 (sq_err hu0 hu (by norm_num) (by norm_num) dy)
  have hu' : u * e.x ^ 2 + u * e.y ^ 2 = u := by rw [← mul_add, he, mul_one]
  rw [abs_le]
  constructor <;> linarith

/-- A case: the vector (3, 4) has length 5 and direction (3/5, 4/5). -/
example : |length2D toDouble ⟨3, 4⟩ - 5| ≤ 1 / 10 ^ 14 ∧ |(normalized2D toDouble ⟨3, 4⟩).x - 3 / 5| ≤ 1 / 10 ^ 15 := by
  have := C133_plane C93_roundings.1 (by norm_num) (a := ⟨3, 4⟩) (e := ⟨3 / 5, 4 / 5⟩) (l := 5) (by norm_num) (by norm_num) (by norm_num)
    (by norm_num)
  refine ⟨this.1.trans (by norm_num), this.2.1.trans ?_⟩
  show 3.2 * (1 / 2 ^ 53) * |(3 / 5 : ℝ)| ≤ _
  rw [abs_of_pos (by norm_num)]
  norm_num

/-- C133. Vectors in space. -/
theorem C133_space (h : RelErr u rnd) (hu : u ≤ 1 / 1000) {d e : Vec3} {l : ℝ} (he : e.x ^ 2 + e.y ^ 2 + e.z ^ 2 = 1) (hl : 0 < l)
    (hx : d.x = l * e.x) (hy : d.y = l * e.y) (hz : d.z = l * e.z) :
    |Rounded.length rnd d - l| ≤ 2.6 * u * l ∧
    |(Rounded.normalized rnd d).x - e.x| ≤ 3.6 * u * |e.x| ∧ |(Rounded.normalized rnd d).y - e.y| ≤ 3.6 * u * |e.y| ∧
    |(Rounded.normalized rnd d).z - e.z| ≤ 3.6 * u * |e.z| ∧
    |(Rounded.normalized rnd d).x ^ 2 + (Rounded.normalized rnd d).y ^ 2 + (Rounded.normalized rnd d).z ^ 2 - 1| ≤ 7.3 * u := by
  have hu0 := Rounded.relErr_nonneg h
  have s1 := add_sq h hu (x := d.y) le_rfl (by norm_num) (sq_nonneg _) (first_sq h d.x)
  have s := add_sq h hu (x := d.z) (by norm_num) (by norm_num) (by positivity) s1
  rw [show d.x ^ 2 + d.y ^ 2 + d.z ^ 2 = l ^ 2 by rw [hx, hy, hz]; linear_combination l ^ 2 * he] at s
  obtain ⟨p, -⟩ := divide h hu hl (by norm_num) (by norm_num) s
  obtain ⟨dx, dy, dz⟩ := RoundedBox.normalized_err h hu (d := d) (e := e) ⟨he, l, hl, hx, hy, hz⟩
  have ul : 0 ≤ u * l := by positivity
  refine ⟨p.trans (by linarith), dx, dy, dz, ?_⟩
  have qx := abs_le.1 (sq_err hu0 hu (by norm_num) (by norm_num) dx)
  have qy := abs_le.1 (sq_err hu0 hu (by norm_num) (by norm_num) dy)
  have qz := abs_le.1 (sq_err hu0 hu (by norm_num) (by norm_num) dz)
  have hu' : u * e.x ^ 2 + u * e.y ^ 2 + u * e.z ^ 2 = u := by rw [← mul_add, ← mul_add, he, mul_one]
  rw [abs_le]
  constructor <;> linarith

/-- A case: the vector (2, 3, 6) has length 7. -/
example : |Rounded.length toDouble ⟨2, 3, 6⟩ - 7| ≤ 1 / 10 ^ 14 :=
  (C133_space C93_roundings.1 (by norm_num) (d := ⟨2, 3, 6⟩) (e := ⟨2 / 7, 3 / 7, 6 / 7⟩) (l := 7) (by norm_num) (by norm_num)
    (by norm_num) (by norm_num) (by norm_num)).1.trans (by norm_num)

/-- C133. Quaternions. -/
theorem C133_quaternion (h : RelErr u rnd) (hu : u ≤ 1 / 1000) {q e : Quat} {l : ℝ} (he : e.x ^ 2 + e.y ^ 2 + e.z ^ 2 + e.w ^ 2 = 1)
    (hl : 0 < l) (hx : q.x = l * e.x) (hy : q.y = l * e.y) (hz : q.z = l * e.z) (hw : q.w = l * e.w) :
    |quatLength rnd q - l| ≤ 3.1 * u * l ∧
    |(quatNormalized rnd q).x - e.x| ≤ 4.2 * u * |e.x| ∧ |(quatNormalized rnd q).y - e.y| ≤ 4.2 * u * |e.y| ∧
    |(quatNormalized rnd q).z - e.z| ≤ 4.2 * u * |e.z| ∧ |(quatNormalized rnd q).w - e.w| ≤ 4.2 * u * |e.w| ∧
    |(quatNormalized rnd q).x ^ 2 + (quatNormalized rnd q).y ^ 2 + (quatNormalized rnd q).z ^ 2 + (quatNormalized rnd q).w ^ 2 - 1| ≤
      8.5 * u := by
  have hu0 := Rounded.relErr_nonneg h
  have s1 := add_sq h hu (x := q.y) le_rfl (by norm_num) (sq_nonneg _) (first_sq h q.x)
  have s2 := add_sq h hu (x := q.z) (by norm_num) (by norm_num) (by positivity) s1
  have s := add_sq h hu (x := q.w) (by norm_num) (by norm_num) (by positivity) s2
  rw [show q.x ^ 2 + q.y ^ 2 + q.z ^ 2 + q.w ^ 2 = l ^ 2 by rw [hx, hy, hz, hw]; linear_combination l ^ 2 * he] at s
  obtain ⟨p, c⟩ := divide h hu hl (by norm_num) (by norm_num) s
  have cx := c e.x
  have cy := c e.y
  have cz := c e.z
  have cw := c e.w
  rw [← hx] at cx
  rw [← hy] at cy
  rw [← hz] at cz
  rw [← hw] at cw
  have ul : 0 ≤ u * l := by positivity
  have w : ∀ x : ℝ, (0.52 * (1 + 1.02 + 1.02 + 1.02) + 2.06) * u * |x| ≤ 4.2 * u * |x| := by
    intro x
    have : 0 ≤ u * |x| := by positivity
    linarith
  have dx : |(quatNormalized rnd q).x - e.x| ≤ 4.2 * u * |e.x| := cx.trans (w _)
  have dy : |(quatNormalized rnd q).y - e.y| ≤ 4.2 * u * |e.y| := cy.trans (w _)
  have dz : |(quatNormalized rnd q).z - e.z| ≤ 4.2 * u * |e.z| := cz.trans (w _)
  have dw : |(quatNormalized rnd q).w - e.w| ≤ 4.2 * u * |e.w| := cw.trans (w _)
  refine ⟨p.trans (by linarith), dx, dy, dz, dw, ?_⟩
  have qx := abs_le.1 (sq_err hu0 hu (by norm_num) (by norm_num) dx)
  have qy := abs_le.1 (sq_err hu0 hu (by norm_num) (by norm_num) dy)
  have qz := abs_le.1 (sq_err hu0 hu (by norm_num) (by norm_num) dz)
  have qw := abs_le.1 (sq_err hu0 hu (by norm_num) (by norm_num) dw)
  have hu' : u * e.x ^ 2 + u * e.y ^ 2 + u * e.z ^ 2 + u * e.w ^ 2 = u := by rw [← mul_add, ← mul_add, ← mul_add, he, mul_one]
  rw [abs_le]
  constructor <;> linarith

/-- A case: the quaternion (1, 1, 1, 1) has length 2. -/
example : |quatLength toDouble ⟨1, 1, 1, 1⟩ - 2| ≤ 1 / 10 ^ 15 :=
  (C133_quaternion C93_roundings.1 (by norm_num) (q := ⟨1, 1, 1, 1⟩) (e := ⟨1 / 2, 1 / 2, 1 / 2, 1 / 2⟩) (l := 2) (by norm_num)
    (by norm_num) (by norm_num) (by norm_num) (by norm_num) (by norm_num)).1.trans (by norm_num)

/-- C133. `normalize` and `normalized` of a matrix agree to the last bit. They take the scale out of a stretched matrix, and the result is
nearly orthogonal if the matrix was so before it was stretched. -/
theorem C133_matrix (h : RelErr u rnd) (hu : u ≤ 1 / 1000) {R m : Mat3} {s : Fin 3 → ℝ} (hs : Stretched R m s) (hR : UnitColumns R)
    {δ : ℝ} (hδ : NearlyOrthogonal δ R) :
    matNormalize rnd m = matNormalized rnd m ∧
    (∀ i j, |M (matNormalized rnd m) i j - M R i j| ≤ 3.6 * u * |M R i j|) ∧
    NearlyOrthogonal (δ + 7.3 * u) (matNormalized rnd m) := by
  have hu0 := Rounded.relErr_nonneg h
  obtain ⟨pos, str⟩ := hs
  have e : ∀ i j, |M (matNormalized rnd m) i j - M R i j| ≤ 3.6 * u * |M R i j| := by
    have col : ∀ j, ∀ d : Vec3, d.x = s j * M R 0 j → d.y = s j * M R 1 j → d.z = s j * M R 2 j →
        |(Rounded.normalized rnd d).x - M R 0 j| ≤ 3.6 * u * |M R 0 j| ∧ |(Rounded.normalized rnd d).y - M R 1 j| ≤ 3.6 * u * |M R 1 j| ∧
        |(Rounded.normalized rnd d).z - M R 2 j| ≤ 3.6 * u * |M R 2 j| := by
      intro j d h0 h1 h2
      exact RoundedBox.normalized_err h hu (d := d) (e := ⟨M R 0 j, M R 1 j, M R 2 j⟩) ⟨hR j, s j, pos j, h0, h1, h2⟩
    obtain ⟨a0, a1, a2⟩ := col 0 (m.getColumn 0) (str 0 0) (str 1 0) (str 2 0)
    obtain ⟨b0, b1, b2⟩ := col 1 (m.getColumn 1) (str 0 1) (str 1 1) (str 2 1)
    obtain ⟨c0, c1, c2⟩ := col 2 (m.getColumn 2) (str 0 2) (str 1 2) (str 2 2)
    intro i j
    fin_cases i <;> fin_cases j
    exacts [a0, b0, c0, a1, b1, c1, a2, b2, c2]
  refine ⟨rfl, e, fun i j => ?_⟩
  have d := hδ i j
  simp only [Matrix.sub_apply, Matrix.mul_apply, Matrix.transpose_apply, Fin.sum_univ_three] at d ⊢
  have p0 := abs_le.1 (mul_err hu0 hu (e 0 i) (e 0 j))
  have p1 := abs_le.1 (mul_err hu0 hu (e 1 i) (e 1 j))
  have p2 := abs_le.1 (mul_err hu0 hu (e 2 i) (e 2 j))
  have hi : u * M R 0 i ^ 2 + u * M R 1 i ^ 2 + u * M R 2 i ^ 2 = u := by rw [← mul_add, ← mul_add, hR i, mul_one]
  have hj : u * M R 0 j ^ 2 + u * M R 1 j ^ 2 + u * M R 2 j ^ 2 = u := by rw [← mul_add, ← mul_add, hR j, mul_one]
  have d' := abs_le.1 d
  rw [abs_le]
  constructor <;> linarith

/-- A case: a quarter turn about the third axis with the unit centimetre, as in a file made by a modelling program. -/
example : ∀ i j, |M (matNormalized toDouble ⟨0, -0.01, 0, 0.01, 0, 0, 0, 0, 0.01⟩) i j - M ⟨0, -1, 0, 1, 0, 0, 0, 0, 1⟩ i j| ≤ 1 / 2 ^ 51 := by
  have hs : Stretched ⟨0, -1, 0, 1, 0, 0, 0, 0, 1⟩ ⟨0, -0.01, 0, 0.01, 0, 0, 0, 0, 0.01⟩ (fun _ => 0.01) := by
    refine ⟨fun _ => by norm_num, fun i j => ?_⟩
    fin_cases i <;> fin_cases j <;> norm_num [M]
  have hR : UnitColumns ⟨0, -1, 0, 1, 0, 0, 0, 0, 1⟩ := by
    intro j
    fin_cases j <;> simp [M]
  have hδ : NearlyOrthogonal 0 ⟨0, -1, 0, 1, 0, 0, 0, 0, 1⟩ := by
    intro i j
    fin_cases i <;> fin_cases j <;> simp [M, Matrix.mul_apply, Fin.sum_univ_three]
  intro i j
  refine ((C133_matrix C93_roundings.1 (by norm_num) hs hR hδ).2.1 i j).trans ?_
  have : |M ⟨0, -1, 0, 1, 0, 0, 0, 0, 1⟩ i j| ≤ 1 := by
    fin_cases i <;> fin_cases j <;> norm_num [M]
  calc _ ≤ 3.6 * (1 / 2 ^ 53) * 1 := mul_le_mul_of_nonneg_left this (by norm_num)
    _ ≤ _ := by norm_num

/-- C133. In double precision a factor that is a power of two is taken out to the last bit: of a vector, and of every column of a
matrix. -/
theorem C133_scale (k : ℤ) (d : Vec3) (k1 k2 k3 : ℤ) (m : Mat3) :
    Rounded.normalized toDouble ⟨2 ^ k * d.x, 2 ^ k * d.y, 2 ^ k * d.z⟩ = Rounded.normalized toDouble d ∧
    matNormalized toDouble ⟨2 ^ k1 * m.xx, 2 ^ k2 * m.xy, 2 ^ k3 * m.xz, 2 ^ k1 * m.yx, 2 ^ k2 * m.yy, 2 ^ k3 * m.yz,
      2 ^ k1 * m.zx, 2 ^ k2 * m.zy, 2 ^ k3 * m.zz⟩ = matNormalized toDouble m := by
  refine ⟨normalized_scale toDouble_scale k d, ?_⟩
  have a := normalized_scale toDouble_scale k1 (m.getColumn 0)
  have b := normalized_scale toDouble_scale k2 (m.getColumn 1)
  have c := normalized_scale toDouble_scale k3 (m.getColumn 2)
  unfold matNormalized
  exact congrArg₂ (fun f z => f z) (congrArg₂ (fun x y => Mat3.ofCols x y) a b) c

/-- A case: the direction of (3/8, 1/2, 0) is that of (3, 4, 0). -/
example : Rounded.normalized toDouble ⟨3 / 8, 1 / 2, 0⟩ = Rounded.normalized toDouble ⟨3, 4, 0⟩ := by
  have := (C133_scale (-3) ⟨3, 4, 0⟩ 0 0 0 Mat3.identity).1
  rw [← this]
  norm_num

end Geo
