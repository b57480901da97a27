import Verif.Model.RoundedSphere
import Verif.Lemmas.RoundedBox
import Verif.Lemmas.FrameCases

/-!
# Helper lemmas on vector operations in floating point arithmetic: errors measured by lengths
-/

namespace Geo.RoundedVec
open Spec

theorem length_nonneg (a : Vec3) : 0 ≤ a.length := Real.sqrt_nonneg _

theorem length_sq (a : Vec3) : a.length ^ 2 = a.length2 := Real.sq_sqrt (Mesh.length2_nonneg a)

theorem length_le {a : Vec3} {k : ℝ} (hk : 0 ≤ k) (h : a.length2 ≤ k ^ 2) : a.length ≤ k :=
  Real.sqrt_le_iff.2 ⟨hk, h⟩

theorem length_le_of_abs {a : Vec3} {k l : ℝ} {b : Vec3} (hk : 0 ≤ k) (hx : |a.x| ≤ k * |b.x|)
    (hy : |a.y| ≤ k * |b.y|) (hz : |a.z| ≤ k * |b.z|) (h : b.length ≤ l) : a.length ≤ k * l := by
  have s : ∀ {x y : ℝ}, |x| ≤ k * |y| → x * x ≤ k ^ 2 * (y * y) := by
    intro x y h
    have := mul_self_le_mul_self (abs_nonneg x) h
    rw [abs_mul_abs_self] at this
    have e : k * |y| * (k * |y|) = k ^ 2 * (|y| * |y|) := by ring
    rwa [e, abs_mul_abs_self] at this
  refine (length_le (k := k * b.length) (mul_nonneg hk (length_nonneg b)) ?_).trans (mul_le_mul_of_nonneg_left h hk)
  rw [mul_pow, length_sq]
  have := s hx
  have := s hy
  have := s hz
  unfold Vec3.length2
  linarith

theorem abs_dot (a b : Vec3) : |a.dot b| ≤ a.length * b.length := by
  refine abs_le_of_sq_le_sq ?_ (mul_nonneg (length_nonneg a) (length_nonneg b))
  rw [mul_pow, length_sq, length_sq]
  have : a.length2 * b.length2 - a.dot b ^ 2 = (a.x * b.y - a.y * b.x) ^ 2 + (a.y * b.z - a.z * b.y) ^ 2 +
      (a.z * b.x - a.x * b.z) ^ 2 := by
    simp only [Vec3.length2, Vec3.dot]; ring
  have : 0 ≤ a.length2 * b.length2 - a.dot b ^ 2 := by rw [this]; positivity
  linarith

/-- The inner product of the absolute values. -/
theorem abs_dot' (a b : Vec3) : |a.x * b.x| + |a.y * b.y| + |a.z * b.z| ≤ a.length * b.length := by
  have h := abs_dot ⟨|a.x|, |a.y|, |a.z|⟩ ⟨|b.x|, |b.y|, |b.z|⟩
  simp only [Vec3.dot, Vec3.length, abs_mul_abs_self] at h
  rw [abs_mul, abs_mul, abs_mul]
  exact (le_abs_self _).trans h

theorem length_cross (a b : Vec3) : (a.cross b).length ≤ a.length * b.length := by
  refine length_le (mul_nonneg (length_nonneg a) (length_nonneg b)) ?_
  rw [mul_pow, length_sq, length_sq]
  have : a.length2 * b.length2 - (a.cross b).length2 = a.dot b ^ 2 := by
    simp only [Vec3.length2, Vec3.dot, Vec3.cross]; ring
  have := sq_nonneg (a.dot b)
  linarith

theorem length_neg (a : Vec3) : (-a).length = a.length := by
  simp [Vec3.length]

theorem length_sub_comm (a b : Vec3) : (a - b).length = (b - a).length := by
  unfold Vec3.length
  congr 1
  simp only [Vec3.sub_x, Vec3.sub_y, Vec3.sub_z]
  ring

/-- The triangle inequality, for differences. -/
theorem length_sub_le (a b c : Vec3) : (a - c).length ≤ (a - b).length + (b - c).length := by
  have := length_add_le (a - b) (b - c)
  rwa [show a - b + (b - c) = a - c by ext <;> simp] at this

theorem length_le_add (a b : Vec3) : a.length ≤ b.length + (a - b).length := by
  have := length_add_le b (a - b)
  rwa [show b + (a - b) = a by ext <;> simp] at this

variable {u : ℝ} {rnd : ℝ → ℝ}

theorem sub_err (h : RelErr u rnd) (a b : Vec3) : (Rounded.sub rnd a b - (a - b)).length ≤ u * (a - b).length :=
  length_le_of_abs (Rounded.relErr_nonneg h) (h _) (h _) (h _) le_rfl

/-- A rounded value whose argument is off by a multiple of `u`. -/
theorem round_abs (h : RelErr u rnd) (hu : u ≤ 1 / 1000) {x x' k S : ℝ} (hk : 0 ≤ k) (hS : |x| ≤ S)
    (hx : |x' - x| ≤ k * u * S) : |rnd x' - x| ≤ (1.001 * k + 1) * u * S := by
  have hu0 := Rounded.relErr_nonneg h
  have A : Ap u S 1 1 k x x' := ⟨by simpa using hS, by simpa using hx⟩
  simpa using (A.round ((abs_nonneg x).trans hS) hu0 hu h hk).er

theorem dot_err (h : RelErr u rnd) (hu : u ≤ 1 / 1000) (a b : Vec3) :
    |Rounded.dot rnd a b - a.dot b| ≤ 3.01 * u * (a.length * b.length) := by
  have hu0 := Rounded.relErr_nonneg h
  have hS := abs_dot' a b
  obtain ⟨S, hSe⟩ : ∃ S, S = |a.x * b.x| + |a.y * b.y| + |a.z * b.z| := ⟨_, rfl⟩
  have h1 := h (a.x * b.x)
  have h2 := h (a.y * b.y)
  have h3 := h (a.z * b.z)
  have n1 := abs_nonneg (a.x * b.x)
  have n2 := abs_nonneg (a.y * b.y)
  have n3 := abs_nonneg (a.z * b.z)
  have k4 := round_abs h hu (x := a.x * b.x + a.y * b.y) (x' := rnd (a.x * b.x) + rnd (a.y * b.y)) (k := 1)
    (S := |a.x * b.x| + |a.y * b.y|) (by norm_num) (abs_add_le _ _) (by
      rw [show rnd (a.x * b.x) + rnd (a.y * b.y) - (a.x * b.x + a.y * b.y) =
        (rnd (a.x * b.x) - a.x * b.x) + (rnd (a.y * b.y) - a.y * b.y) by ring]
      refine (abs_add_le _ _).trans ?_
      linarith)
  have hz : 0 ≤ u * |a.z * b.z| := by positivity
  have k5 := round_abs h hu (x := a.x * b.x + a.y * b.y + a.z * b.z)
    (x' := rnd (rnd (a.x * b.x) + rnd (a.y * b.y)) + rnd (a.z * b.z)) (k := 2.001) (S := S) (by norm_num)
    (by rw [hSe]; exact (abs_add_le _ _).trans (add_le_add (abs_add_le _ _) le_rfl)) (by
      rw [show rnd (rnd (a.x * b.x) + rnd (a.y * b.y)) + rnd (a.z * b.z) - (a.x * b.x + a.y * b.y + a.z * b.z) =
        (rnd (rnd (a.x * b.x) + rnd (a.y * b.y)) - (a.x * b.x + a.y * b.y)) + (rnd (a.z * b.z) - a.z * b.z) by ring]
      refine (abs_add_le _ _).trans ?_
      rw [hSe]
      linarith)
  rw [← hSe] at hS
  have h0 : u * S ≤ u * (a.length * b.length) := mul_le_mul_of_nonneg_left hS hu0
  show |rnd (rnd (rnd (a.x * b.x) + rnd (a.y * b.y)) + rnd (a.z * b.z)) - (a.x * b.x + a.y * b.y + a.z * b.z)| ≤ _
  have : 0 ≤ u * S := by rw [hSe]; positivity
  linarith

theorem cross_err (h : RelErr u rnd) (hu : u ≤ 1 / 1000) (a b : Vec3) :
    (Rounded.cross rnd a b - a.cross b).length ≤ 3.5 * u * (a.length * b.length) := by
  have hu0 := Rounded.relErr_nonneg h
  have key : ∀ p q r s : ℝ, |rnd (rnd (p * q) - rnd (r * s)) - (p * q - r * s)| ≤ 2.001 * u * (|p * q| + |r * s|) := by
    intro p q r s
    have h1 := h (p * q)
    have h2 := h (r * s)
    have := round_abs h hu (x := p * q - r * s) (x' := rnd (p * q) - rnd (r * s)) (k := 1) (S := |p * q| + |r * s|)
      (by norm_num) (abs_sub _ _) (by
        rw [show rnd (p * q) - rnd (r * s) - (p * q - r * s) = (rnd (p * q) - p * q) - (rnd (r * s) - r * s) by ring]
        refine (abs_sub _ _).trans ?_
        linarith)
    linarith
  have cs : ∀ p q r s : ℝ, (|p * q| + |r * s|) ^ 2 ≤ (p ^ 2 + r ^ 2) * (q ^ 2 + s ^ 2) := by
    intro p q r s
    have h1 := sq_abs (p * q)
    have h2 := sq_abs (r * s)
    have h3 := sq_nonneg (|p| * |s| - |r| * |q|)
    rw [abs_mul, abs_mul] at *
    have e1 := sq_abs p
    have e2 := sq_abs q
    have e3 := sq_abs r
    have e4 := sq_abs s
    have : (p ^ 2 + r ^ 2) * (q ^ 2 + s ^ 2) - (|p| * |q| + |r| * |s|) ^ 2 = (|p| * |s| - |r| * |q|) ^ 2 := by
      rw [← e1, ← e2, ← e3, ← e4]; ring
    linarith
  have sqle : ∀ {x y : ℝ}, |x| ≤ 2.001 * u * y → x * x ≤ (2.001 * u) ^ 2 * y ^ 2 := by
    intro x y h
    have := mul_self_le_mul_self (abs_nonneg x) h
    rw [abs_mul_abs_self] at this
    linarith
  refine length_le (mul_nonneg (by positivity) (mul_nonneg (length_nonneg a) (length_nonneg b))) ?_
  have k1 := sqle (key a.y b.z a.z b.y)
  have k2 := sqle (key a.z b.x a.x b.z)
  have k3 := sqle (key a.x b.y a.y b.x)
  have c1 := cs a.y b.z a.z b.y
  have c2 := cs a.z b.x a.x b.z
  have c3 := cs a.x b.y a.y b.x
  have A2 : a.length2 = a.x ^ 2 + a.y ^ 2 + a.z ^ 2 := by simp only [Vec3.length2]; ring
  have B2 : b.length2 = b.x ^ 2 + b.y ^ 2 + b.z ^ 2 := by simp only [Vec3.length2]; ring
  have tot : (|a.y * b.z| + |a.z * b.y|) ^ 2 + (|a.z * b.x| + |a.x * b.z|) ^ 2 + (|a.x * b.y| + |a.y * b.x|) ^ 2 ≤
      3 * (a.length2 * b.length2) := by
    rw [A2, B2]
    have m : ∀ p q r s t v : ℝ, (p ^ 2 + r ^ 2) * (q ^ 2 + s ^ 2) ≤ (p ^ 2 + r ^ 2 + t ^ 2) * (q ^ 2 + s ^ 2 + v ^ 2) :=
      fun p q r s t v => mul_le_mul (by nlinarith [sq_nonneg t]) (by nlinarith [sq_nonneg v]) (by positivity) (by positivity)
    have m1 := m a.y b.z a.z b.y a.x b.x
    have m2 := m a.z b.x a.x b.z a.y b.y
    have m3 := m a.x b.y a.y b.x a.z b.z
    have r1 : (a.y ^ 2 + a.z ^ 2 + a.x ^ 2) * (b.z ^ 2 + b.y ^ 2 + b.x ^ 2) =
      (a.x ^ 2 + a.y ^ 2 + a.z ^ 2) * (b.x ^ 2 + b.y ^ 2 + b.z ^ 2) := by ring
    have r2 : (a.z ^ 2 + a.x ^ 2 + a.y ^ 2) * (b.x ^ 2 + b.z ^ 2 + b.y ^ 2) =
      (a.x ^ 2 + a.y ^ 2 + a.z ^ 2) * (b.x ^ 2 + b.y ^ 2 + b.z ^ 2) := by ring
    have r3 : (a.x ^ 2 + a.y ^ 2 + a.z ^ 2) * (b.y ^ 2 + b.x ^ 2 + b.z ^ 2) =
      (a.x ^ 2 + a.y ^ 2 + a.z ^ 2) * (b.x ^ 2 + b.y ^ 2 + b.z ^ 2) := by ring
    linarith
  have e : (3.5 * u * (a.length * b.length)) ^ 2 = 3.5 ^ 2 * u ^ 2 * (a.length2 * b.length2) := by
    rw [← length_sq a, ← length_sq b]; ring
  rw [e]
  have hv : (Rounded.cross rnd a b - a.cross b).length2 ≤ (2.001 * u) ^ 2 * (3 * (a.length2 * b.length2)) := by
    refine le_trans ?_ (mul_le_mul_of_nonneg_left tot (by positivity))
    show _ * _ + _ * _ + _ * _ ≤ _
    simp only [Rounded.cross, Vec3.cross, Vec3.sub_x, Vec3.sub_y, Vec3.sub_z]
    linarith
  refine hv.trans ?_
  have : 0 ≤ u ^ 2 * (a.length2 * b.length2) :=
    mul_nonneg (sq_nonneg u) (mul_nonneg (Mesh.length2_nonneg a) (Mesh.length2_nonneg b))
  nlinarith

/-- A rounded difference of vectors that are themselves off. -/
theorem sub_near (h : RelErr u rnd) {a a' b b' : Vec3} {x y : ℝ} (ha : (a' - a).length ≤ x) (hb : (b' - b).length ≤ y) :
    (Rounded.sub rnd a' b' - (a - b)).length ≤ x + y + u * ((a - b).length + x + y) := by
  have hu0 := Rounded.relErr_nonneg h
  have h1 := sub_err h a' b'
  have h2 : (a' - b' - (a - b)).length ≤ x + y := by
    have := length_add_le (a' - a) (b - b')
    rw [show a' - a + (b - b') = a' - b' - (a - b) by ext <;> simp <;> ring, length_sub_comm b b'] at this
    linarith
  have h3 := length_le_add (a' - b') (a - b)
  have h4 := length_sub_le (Rounded.sub rnd a' b') (a' - b') (a - b)
  have h5 : u * (a' - b').length ≤ u * ((a - b).length + x + y) := mul_le_mul_of_nonneg_left (by linarith) hu0
  linarith

/-- A rounded vector product of vectors that are themselves off. -/
theorem cross_near (h : RelErr u rnd) (hu : u ≤ 1 / 1000) {a a' b b' : Vec3} {x y A B : ℝ} (ha : (a' - a).length ≤ x)
    (hb : (b' - b).length ≤ y) (hA : a.length ≤ A) (hB : b.length ≤ B) :
    (Rounded.cross rnd a' b' - a.cross b).length ≤ x * (B + y) + A * y + 3.5 * u * ((A + x) * (B + y)) := by
  have hu0 := Rounded.relErr_nonneg h
  have hA0 := (length_nonneg a).trans hA
  have hB0 := (length_nonneg b).trans hB
  have hx0 := (length_nonneg _).trans ha
  have hy0 := (length_nonneg _).trans hb
  have h1 := cross_err h hu a' b'
  have ha' : a'.length ≤ A + x := by have := length_le_add a' a; linarith
  have hb' : b'.length ≤ B + y := by have := length_le_add b' b; linarith
  have h2 : a'.length * b'.length ≤ (A + x) * (B + y) := mul_le_mul ha' hb' (length_nonneg _) (by positivity)
  have h3 := length_cross (a' - a) b'
  have h4 := length_cross a (b' - b)
  have h5 := length_add_le ((a' - a).cross b') (a.cross (b' - b))
  rw [show (a' - a).cross b' + a.cross (b' - b) = a'.cross b' - a.cross b by
    ext <;> simp only [Vec3.cross, Vec3.add_x, Vec3.add_y, Vec3.add_z, Vec3.sub_x, Vec3.sub_y, Vec3.sub_z] <;> ring] at h5
  have h6 := length_sub_le (Rounded.cross rnd a' b') (a'.cross b') (a.cross b)
  have h7 : (a' - a).length * b'.length ≤ x * (B + y) := mul_le_mul ha hb' (length_nonneg _) hx0
  have h8 : a.length * (b' - b).length ≤ A * y := mul_le_mul hA hb (length_nonneg _) hA0
  have h9 : 3.5 * u * (a'.length * b'.length) ≤ 3.5 * u * ((A + x) * (B + y)) := mul_le_mul_of_nonneg_left h2 (by positivity)
  linarith

/-- A rounded inner product of vectors that are themselves off. -/
theorem dot_near (h : RelErr u rnd) (hu : u ≤ 1 / 1000) {a a' b b' : Vec3} {x y A B : ℝ} (ha : (a' - a).length ≤ x)
    (hb : (b' - b).length ≤ y) (hA : a.length ≤ A) (hB : b.length ≤ B) :
    |Rounded.dot rnd a' b' - a.dot b| ≤ x * (B + y) + A * y + 3.01 * u * ((A + x) * (B + y)) := by
  have hu0 := Rounded.relErr_nonneg h
  have hA0 := (length_nonneg a).trans hA
  have hB0 := (length_nonneg b).trans hB
  have hx0 := (length_nonneg _).trans ha
  have hy0 := (length_nonneg _).trans hb
  have h1 := dot_err h hu a' b'
  have ha' : a'.length ≤ A + x := by have := length_le_add a' a; linarith
  have hb' : b'.length ≤ B + y := by have := length_le_add b' b; linarith
  have h2 : a'.length * b'.length ≤ (A + x) * (B + y) := mul_le_mul ha' hb' (length_nonneg _) (by positivity)
  have h3 := abs_dot (a' - a) b'
  have h4 := abs_dot a (b' - b)
  have h5 := abs_add_le ((a' - a).dot b') (a.dot (b' - b))
  rw [show (a' - a).dot b' + a.dot (b' - b) = a'.dot b' - a.dot b by
    simp only [Vec3.dot, Vec3.sub_x, Vec3.sub_y, Vec3.sub_z]; ring] at h5
  have h6 := abs_sub_le (Rounded.dot rnd a' b') (a'.dot b') (a.dot b)
  have h7 : (a' - a).length * b'.length ≤ x * (B + y) := mul_le_mul ha hb' (length_nonneg _) hx0
  have h8 : a.length * (b' - b).length ≤ A * y := mul_le_mul hA hb (length_nonneg _) hA0
  have h9 : 3.01 * u * (a'.length * b'.length) ≤ 3.01 * u * ((A + x) * (B + y)) := mul_le_mul_of_nonneg_left h2 (by positivity)
  linarith

/-- The rounded squared length of a rounded difference. -/
theorem length2_sub_err (h : RelErr u rnd) (hu : u ≤ 1 / 1000) (a b : Vec3) :
    |Rounded.length2 rnd (Rounded.sub rnd a b) - (a - b).length2| ≤ 5.1 * u * (a - b).length2 := by
  have hu0 := Rounded.relErr_nonneg h
  have R : Rnd u 0 rnd := ⟨le_rfl, hu0, hu, h⟩
  have h1 := R.length2 (Rounded.sub rnd a b)
  have key : ∀ x : ℝ, |rnd x * rnd x - x * x| ≤ 2.001 * u * (x * x) := by
    intro x
    have hx := h x
    have e : rnd x * rnd x - x * x = (rnd x - x) * (rnd x - x) + 2 * x * (rnd x - x) := by ring
    have h3 : |rnd x - x| * |rnd x - x| ≤ u * |x| * (u * |x|) := mul_self_le_mul_self (abs_nonneg _) hx
    have h4 : |x| * |rnd x - x| ≤ |x| * (u * |x|) := mul_le_mul_of_nonneg_left hx (abs_nonneg x)
    have e2 := abs_mul_abs_self x
    have h5 : u * u * (x * x) ≤ 0.001 * u * (x * x) :=
      mul_le_mul_of_nonneg_right (by nlinarith) (mul_self_nonneg x)
    rw [e]
    refine (abs_add_le _ _).trans ?_
    rw [abs_mul, abs_mul, abs_mul, abs_of_pos (by norm_num : (0:ℝ) < 2)]
    have e3 : u * |x| * (u * |x|) = u * u * (|x| * |x|) := by ring
    have e4 : |x| * (u * |x|) = u * (|x| * |x|) := by ring
    rw [e3, e2] at h3
    rw [e4, e2] at h4
    linarith
  have h2 : |(Rounded.sub rnd a b).length2 - (a - b).length2| ≤ 2.001 * u * (a - b).length2 := by
    have k1 := abs_le.1 (key (a.x - b.x))
    have k2 := abs_le.1 (key (a.y - b.y))
    have k3 := abs_le.1 (key (a.z - b.z))
    simp only [Rounded.sub, Vec3.length2, Vec3.sub_x, Vec3.sub_y, Vec3.sub_z]
    rw [abs_le]
    constructor <;> linarith [k1.1, k1.2, k2.1, k2.2, k3.1, k3.2]
  have h0 := Mesh.length2_nonneg (a - b)
  generalize (a - b).length2 = s at *
  generalize (Rounded.sub rnd a b).length2 = s' at *
  have h3 : s' ≤ 1.01 * s := by
    have := (abs_le.1 h2).2
    nlinarith
  have h4 := abs_sub_le (Rounded.length2 rnd (Rounded.sub rnd a b)) s' s
  have h5 : 3.01 * u * s' ≤ 3.01 * u * (1.01 * s) := mul_le_mul_of_nonneg_left h3 (by positivity)
  have : 0 ≤ u * s := by positivity
  linarith

end Geo.RoundedVec
