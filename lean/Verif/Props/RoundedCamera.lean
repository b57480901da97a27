import Verif.Lemmas.RoundedCamera
import Verif.Props.Rounded

/-!
# Property C110: pixels, rays and back in floating point arithmetic

The full statement is: projecting the ray of a pixel gives the pixel, for results of type `double` rounded to the nearest integer, of type
`float`, and of type `int`. For `int` it is false (`C110_int_wrong`).
-/

namespace Geo

open Spec

/-- Without rounding the functions are those of `Model/DepthCamera`. -/
theorem C110_exact (c : Camera) (p : Vec3) (x y : ℤ) :
    Rounded.project3Dto2D id c p = c.project3Dto2D p ∧ Rounded.project2Dto3D id c x y = c.project2Dto3D x y :=
  ⟨rfl, rfl⟩

/-- C110: at distance 1 the coordinates return up to `26 u` of the largest of the numbers involved, where `u` is the relative error of one
operation. -/
theorem C110_near {u : ℝ} {rnd : ℝ → ℝ} (h : RelErr u rnd) (hu : u ≤ 1 / 1000) (c : Camera) (hx : c.fx ≠ 0) (hy : c.fy ≠ 0) (x y : ℤ)
    {S : ℝ} (h1 : |(x : ℝ)| ≤ S) (h2 : |(y : ℝ)| ≤ S) (h3 : |c.cx| ≤ S) (h4 : |c.cy| ≤ S) (h5 : |c.Tx| ≤ S) (h6 : |c.Ty| ≤ S) :
    |(Rounded.project3Dto2D rnd c (Rounded.project2Dto3D rnd c x y)).x - x| ≤ 26 * (u * S) ∧
    |(Rounded.project3Dto2D rnd c (Rounded.project2Dto3D rnd c x y)).y - y| ≤ 26 * (u * S) := by
  constructor
  · have := pixel_err h h (Rounded.relErr_nonneg h) hu (f := c.fx) (c := c.cx) (t := c.Tx) hx h1 h3 h5
    simpa only [Rounded.project3Dto2D, Rounded.project2Dto3D, Rounded.project2Dto3DX, neg_neg] using this
  · have := pixel_err h (relErr_neg h) (Rounded.relErr_nonneg h) hu (f := c.fy) (c := c.cy) (t := c.Ty) hy h2 h4 h6
    simpa only [Rounded.project3Dto2D, Rounded.project2Dto3D, Rounded.project2Dto3DY, neg_neg, neg_div] using this

example : |(Rounded.project3Dto2D toDouble ⟨554.25, 554.25, 319.5, 239.5, 0, 0, 640, 480⟩ (Rounded.project2Dto3D toDouble ⟨554.25, 554.25, 319.5, 239.5, 0, 0, 640, 480⟩ 17 300)).x - (17 : ℤ)| ≤
    26 * (1 / 2 ^ 53 * 640) :=
  (C110_near C93_roundings.1 (by norm_num) ⟨554.25, 554.25, 319.5, 239.5, 0, 0, 640, 480⟩ (S := 640) (by norm_num) (by norm_num) 17 300 (by norm_num) (by norm_num) (by norm_num [abs_le]) (by norm_num [abs_le])
    (by norm_num) (by norm_num)).1

/-- C110: the same at every distance `d` that is itself a number of the format, for cameras without `Tx`, `Ty` (see `C60_offset`). -/
theorem C110_depth {u : ℝ} {rnd : ℝ → ℝ} (h : RelErr u rnd) (hu : u ≤ 1 / 1000) (c : Camera) (hx : c.fx ≠ 0) (hy : c.fy ≠ 0)
    (hTx : c.Tx = 0) (hTy : c.Ty = 0) (x y : ℤ) {d : ℝ} (hd : 0 < d) (hr : rnd (-1 * d) = -d)
    {S : ℝ} (h1 : |(x : ℝ)| ≤ S) (h2 : |(y : ℝ)| ≤ S) (h3 : |c.cx| ≤ S) (h4 : |c.cy| ≤ S) :
    |(Rounded.project3Dto2D rnd c (Rounded.scale rnd (Rounded.project2Dto3D rnd c x y) d)).x - x| ≤ 26 * (u * S) ∧
    |(Rounded.project3Dto2D rnd c (Rounded.scale rnd (Rounded.project2Dto3D rnd c x y) d)).y - y| ≤ 26 * (u * S) := by
  constructor
  · have := pixel_depth_err h h (Rounded.relErr_nonneg h) hu (f := c.fx) (c := c.cx) hx hd h1 h3
    simpa only [Rounded.project3Dto2D, Rounded.project2Dto3D, Rounded.project2Dto3DX, Rounded.scale, hr, hTx, neg_neg] using this
  · have hr' : rnd (-(1 * d)) = -d := by rw [← hr, neg_mul]
    have := pixel_depth_err h (relErr_neg h) (Rounded.relErr_nonneg h) hu (f := c.fy) (c := c.cy) hy hd h2 h4
    simpa only [Rounded.project3Dto2D, Rounded.project2Dto3D, Rounded.project2Dto3DY, Rounded.scale, hr', hTy, neg_neg, neg_div, neg_mul] using this

example : |(Rounded.project3Dto2D toDouble ⟨554.25, 554.25, 319.5, 239.5, 0, 0, 640, 480⟩
    (Rounded.scale toDouble (Rounded.project2Dto3D toDouble ⟨554.25, 554.25, 319.5, 239.5, 0, 0, 640, 480⟩ 17 300) 2)).x - (17 : ℤ)| ≤ 26 * (1 / 2 ^ 53 * 640) :=
  (C110_depth C93_roundings.1 (by norm_num) ⟨554.25, 554.25, 319.5, 239.5, 0, 0, 640, 480⟩ (S := 640) (by norm_num) (by norm_num) rfl rfl 17 300 two_pos
    (by rw [show (-1 : ℝ) * 2 = -2 by norm_num]; exact toDouble_neg_two) (by norm_num) (by norm_num) (by norm_num [abs_le])
    (by norm_num [abs_le])).1

/-- C110: with a result of type `double`, the nearest integers are the pixel, at distance 1 and for images of up to `2^40` pixels. -/
theorem C110_double (c : Camera) (hx : c.fx ≠ 0) (hy : c.fy ≠ 0) (x y : ℤ) (h1 : |(x : ℝ)| ≤ 2 ^ 40) (h2 : |(y : ℝ)| ≤ 2 ^ 40)
    (h3 : |c.cx| ≤ 2 ^ 40) (h4 : |c.cy| ≤ 2 ^ 40) (h5 : |c.Tx| ≤ 2 ^ 40) (h6 : |c.Ty| ≤ 2 ^ 40) :
    nearestEven (Rounded.project3Dto2D toDouble c (Rounded.project2Dto3D toDouble c x y)).x = x ∧
    nearestEven (Rounded.project3Dto2D toDouble c (Rounded.project2Dto3D toDouble c x y)).y = y := by
  obtain ⟨a, b⟩ := C110_near C93_roundings.1 (by norm_num) c hx hy x y h1 h2 h3 h4 h5 h6
  exact ⟨nearestEven_eq (a.trans_lt (by norm_num)), nearestEven_eq (b.trans_lt (by norm_num))⟩

example : nearestEven (Rounded.project3Dto2D toDouble ⟨554.25, 554.25, 319.5, 239.5, 0, 0, 640, 480⟩ (Rounded.project2Dto3D toDouble ⟨554.25, 554.25, 319.5, 239.5, 0, 0, 640, 480⟩ 17 300)).x = 17 :=
  (C110_double ⟨554.25, 554.25, 319.5, 239.5, 0, 0, 640, 480⟩ (by norm_num) (by norm_num) 17 300 (by norm_num) (by norm_num) (by norm_num [abs_le]) (by norm_num [abs_le])
    (by norm_num) (by norm_num)).1

/-- C110: with a result of type `float`, as in the renderer, the coordinates other than 0 return exactly, and truncation gives the pixel, for
images and offsets of less than `2^20` pixels. -/
theorem C110_float (c : Camera) (hx : c.fx ≠ 0) (hy : c.fy ≠ 0) (x y : ℤ) (h1 : 0 ≤ x ∧ x < 2 ^ 20) (h2 : 0 ≤ y ∧ y < 2 ^ 20)
    (h3 : |c.cx| ≤ 2 ^ 20) (h4 : |c.cy| ≤ 2 ^ 20) (h5 : |c.Tx| ≤ 2 ^ 20) (h6 : |c.Ty| ≤ 2 ^ 20) :
    let q := Rounded.project3Dto2Dfloat toDouble toFloat c (Rounded.project2Dto3D toDouble c x y)
    (x ≠ 0 → q.x = x) ∧ (y ≠ 0 → q.y = y) ∧ castInt q.x = .ok x ∧ castInt q.y = .ok y := by
  have big : ∀ z : ℤ, 0 ≤ z ∧ z < 2 ^ 20 → |(z : ℝ)| ≤ 2 ^ 20 := by
    rintro z ⟨a, b⟩
    rw [abs_le]
    have a' : (0 : ℝ) ≤ z := by exact_mod_cast a
    have b' : (z : ℝ) < 2 ^ 20 := by exact_mod_cast b
    constructor <;> linarith
  obtain ⟨a, b⟩ := C110_near C93_roundings.1 (by norm_num) c hx hy x y (big x h1) (big y h2) h3 h4 h5 h6
  have key : ∀ (z : ℤ) (v : ℝ), 0 ≤ z ∧ z < 2 ^ 20 → |v - z| ≤ 26 * (1 / 2 ^ 53 * 2 ^ 20) →
      (z ≠ 0 → toFloat v = z) ∧ castInt (toFloat v) = .ok z := by
    intro z v hz hv
    have hv' : |v - z| ≤ 1 / 2 ^ 26 := hv.trans (by norm_num)
    have ht : trunc (toFloat v) = z := by
      by_cases z0 : z = 0
      · subst z0
        rw [Int.cast_zero, sub_zero] at hv'
        have n1 := toFloat_near v
        have n2 : |toFloat v| < 1 := by
          have := abs_sub_abs_le_abs_sub (toFloat v) v
          norm_num at hv' n1 ⊢
          linarith
        rcases trunc_near (x := 0) le_rfl (by rw [Int.cast_zero, sub_zero]; exact n2) with h | h
        · exact h
        · exfalso
          rw [abs_lt] at n2
          unfold trunc at h
          split_ifs at h with h0
          · have := Int.floor_nonneg.2 h0
            omega
          · rw [Int.ceil_eq_iff] at h
            norm_num at h
            linarith
      · rw [toFloat_near_int (by omega) hz.2 hv']
        unfold trunc
        rw [if_pos (by exact_mod_cast hz.1), Int.floor_intCast]
    refine ⟨fun z0 => toFloat_near_int (by omega) hz.2 hv', ?_⟩
    unfold castInt
    rw [ht, if_pos]
    constructor <;> omega
  exact ⟨(key x _ h1 a).1, (key y _ h2 b).1, (key x _ h1 a).2, (key y _ h2 b).2⟩

example : (Rounded.project3Dto2Dfloat toDouble toFloat ⟨554.25, 554.25, 319.5, 239.5, 0, 0, 640, 480⟩ (Rounded.project2Dto3D toDouble ⟨554.25, 554.25, 319.5, 239.5, 0, 0, 640, 480⟩ 17 300)).x = (17 : ℤ) :=
  (C110_float ⟨554.25, 554.25, 319.5, 239.5, 0, 0, 640, 480⟩ (by norm_num) (by norm_num) 17 300 (by norm_num) (by norm_num) (by norm_num [abs_le]) (by norm_num [abs_le])
    (by norm_num) (by norm_num)).1 (by norm_num)

/-- C110 (partial): with a result of type `int` each coordinate is that of the pixel or one less. Missing for the full claim: that it is that
of the pixel (`C110_int_wrong`). -/
theorem C110_int_partial (c : Camera) (hx : c.fx ≠ 0) (hy : c.fy ≠ 0) (x y : ℤ) (h1 : 0 ≤ x ∧ x < 2 ^ 31) (h2 : 0 ≤ y ∧ y < 2 ^ 31)
    (h3 : |c.cx| ≤ 2 ^ 40) (h4 : |c.cy| ≤ 2 ^ 40) (h5 : |c.Tx| ≤ 2 ^ 40) (h6 : |c.Ty| ≤ 2 ^ 40) :
    ∃ x' y', Rounded.project3Dto2Dint toDouble c (Rounded.project2Dto3D toDouble c x y) = .ok (x', y') ∧
      (x' = x ∨ x' = x - 1) ∧ (y' = y ∨ y' = y - 1) := by
  have big : ∀ z : ℤ, 0 ≤ z ∧ z < 2 ^ 31 → |(z : ℝ)| ≤ 2 ^ 40 := by
    rintro z ⟨a, b⟩
    rw [abs_le]
    have a' : (0 : ℝ) ≤ z := by exact_mod_cast a
    have b' : (z : ℝ) < 2 ^ 31 := by exact_mod_cast b
    norm_num at b' ⊢
    constructor <;> linarith
  obtain ⟨a, b⟩ := C110_near C93_roundings.1 (by norm_num) c hx hy x y (big x h1) (big y h2) h3 h4 h5 h6
  have ta := trunc_near h1.1 (a.trans_lt (by norm_num))
  have tb := trunc_near h2.1 (b.trans_lt (by norm_num))
  have ok : ∀ (z : ℤ) (v : ℝ), 0 ≤ z ∧ z < 2 ^ 31 → trunc v = z ∨ trunc v = z - 1 → castInt v = .ok (trunc v) := by
    intro z v hz hv
    unfold castInt
    rw [if_pos]
    omega
  refine ⟨_, _, ?_, ta, tb⟩
  unfold Rounded.project3Dto2Dint
  rw [ok x _ h1 ta, ok y _ h2 tb]
  rfl

example : ∃ x' y', Rounded.project3Dto2Dint toDouble ⟨554.25, 554.25, 319.5, 239.5, 0, 0, 640, 480⟩ (Rounded.project2Dto3D toDouble ⟨554.25, 554.25, 319.5, 239.5, 0, 0, 640, 480⟩ 17 300) = .ok (x', y') ∧
    (x' = 17 ∨ x' = 17 - 1) ∧ (y' = 300 ∨ y' = 300 - 1) :=
  C110_int_partial ⟨554.25, 554.25, 319.5, 239.5, 0, 0, 640, 480⟩ (by norm_num) (by norm_num) 17 300 (by norm_num) (by norm_num) (by norm_num [abs_le]) (by norm_num [abs_le])
    (by norm_num) (by norm_num)

/-- C110: the claim is false for results of type `int`. With focal lengths of 49 pixels, the ray of the pixel (1, 0) is projected to the
pixel (0, 0), because `1 / 49 * 49` is less than 1 in `double`. -/
theorem C110_int_wrong : ∃ c : Camera, c.fx = 49 ∧ c.fy = 49 ∧ c.Tx = 0 ∧ c.Ty = 0 ∧
    Rounded.project3Dto2Dint toDouble c (Rounded.project2Dto3D toDouble c 1 0) = .ok (0, 0) := by
  refine ⟨⟨49, 49, 0, 0, 0, 0, 4, 4⟩, rfl, rfl, rfl, rfl, ?_⟩
  have z := toDouble_zero
  have o : toDouble 1 = 1 := by
    have := toDouble_eq (x := 1) (-52) (m := 2 ^ 52) (by norm_num) (by norm_num) (by norm_num)
    rw [this]
    norm_num
  have q : toDouble (1 / 49) = 5882252574524729 / 2 ^ 58 := by
    have := toDouble_eq (x := 1 / 49) (-58) (m := 5882252574524729) (by norm_num) (by norm_num) (by norm_num [abs_lt])
    rw [this]
    norm_num
  have r : toDouble (49 * (5882252574524729 / 2 ^ 58)) = 9007199254740991 / 2 ^ 53 := by
    have := toDouble_eq (x := 49 * (5882252574524729 / 2 ^ 58)) (-53) (m := 9007199254740991) (by norm_num) (by norm_num)
      (by norm_num [abs_lt])
    rw [this]
    norm_num
  have r' : toDouble (9007199254740991 / 2 ^ 53) = 9007199254740991 / 2 ^ 53 := by
    have := toDouble_eq (x := 9007199254740991 / 2 ^ 53) (-53) (m := 9007199254740991) (by norm_num) (by norm_num) (by norm_num)
    rw [this]
    norm_num
  have t : castInt (9007199254740991 / 2 ^ 53) = .ok 0 := by
    have : trunc (9007199254740991 / 2 ^ 53) = 0 := by
      unfold trunc
      rw [if_pos (by norm_num), Int.floor_eq_iff]
      norm_num
    unfold castInt
    rw [this, if_pos (by norm_num)]
  have t0 : castInt 0 = .ok 0 := by simp [castInt, trunc]
  have e : Rounded.project3Dto2D toDouble ⟨49, 49, 0, 0, 0, 0, 4, 4⟩ (Rounded.project2Dto3D toDouble ⟨49, 49, 0, 0, 0, 0, 4, 4⟩ 1 0) =
      ⟨9007199254740991 / 2 ^ 53, 0⟩ := by
    simp only [Rounded.project3Dto2D, Rounded.project2Dto3D, Rounded.project2Dto3DX, Rounded.project2Dto3DY, add_zero, z, sub_zero, Int.cast_one,
      Int.cast_zero, o, q, r, r', neg_neg, div_one, neg_zero, zero_div, mul_zero]
  unfold Rounded.project3Dto2Dint
  rw [e, t, t0]
  rfl

end Geo
