import Verif.Model.RoundedShapes
import Verif.Lemmas.Shapes
import Verif.Spec.RoundedLaser
import Verif.Lemmas.RoundedShape
import Mathlib.Analysis.SpecialFunctions.Trigonometric.Bounds
import Mathlib.Analysis.Real.Pi.Bounds

/-! # Helper lemmas about cylinders and prisms in floating point arithmetic -/

namespace Geo.RoundedShapes
open Spec Shapes

variable {u v : ℝ} {F : FloatLib}

theorem cylinder_mesh (s : Shape) (radius : ℝ) {height : ℝ} (h1 : F.rnd (height / 2) = height / 2) (h2 : F.rnd (-height / 2) = -height / 2)
    {n : ℕ} (hn : 2 ≤ n) (h32 : 2 * n ≤ 2 ^ 32) :
    ∃ s', createCylinder F s radius height n = .ok s' ∧ s'.mesh.points = ring (corner F radius n) n height ∧
      s'.mesh.tris = caps n ++ sides n ∧ Reachable s'.mesh ∧ s'.bbValid = false := by
  unfold createCylinder
  rw [loop_ok (cylinderPoint F radius height n) (by omega) (fun i s _ _ => rfl)]
  simp only [bind, Except.bind]
  rw [predU_pos hn, loop_ok (fun i (m : Mesh) =>
    (m.addTriangle 0 (u32 (2 * i)) (u32 (u32 (2 * i) + 2))).addTriangle 1 (u32 (u32 (2 * i) + 3)) (u32 (u32 (2 * i) + 1)))
      (by omega) (fun i s _ _ => rfl)]
  simp only
  rw [loop_ok (fun i (m : Mesh) => (m.addTriangle (u32 (i * 2)) (u32 (i * 2 + 1)) (u32 (u32 (i + 1) % n * 2))).addTriangle
    (u32 (i * 2 + 1)) (u32 (u32 (i + 1) % n * 2 + 1)) (u32 (u32 (i + 1) % n * 2))) (by omega) (fun i s _ _ => rfl)]
  refine ⟨_, rfl, ?_, ?_, ?_, rfl⟩
  rotate_left 2
  · exact foldl_reachable (fun m i hm => (hm.addTriangle _ _ _).addTriangle _ _ _) _ _
      (foldl_reachable (fun m i hm => (hm.addTriangle _ _ _).addTriangle _ _ _) _ _
        (foldl_reachable (fun m i hm => (hm.addPoint _).addPoint _) _ _ ⟨[], rfl⟩))
  all_goals
    obtain ⟨a1, a2⟩ := foldl_points
      (corner F radius n) height
      (cylinderPoint F radius height n) (fun i m => by simp only [cylinderPoint, h1, h2]) (List.range' 0 (n - 0)) Mesh.new
    obtain ⟨b1, b2⟩ := foldl_tris (fun i => [⟨0, 2 * i, 2 * i + 2⟩, ⟨1, 2 * i + 3, 2 * i + 1⟩]) (fun i (m : Mesh) =>
      (m.addTriangle 0 (u32 (2 * i)) (u32 (u32 (2 * i) + 2))).addTriangle 1 (u32 (u32 (2 * i) + 3)) (u32 (u32 (2 * i) + 1)))
      (List.range' 1 (n - 1 - 1)) ((List.range' 0 (n - 0)).foldl (fun m i => cylinderPoint F radius height n i m) Mesh.new)
      (by
        intro i hi m
        rw [List.mem_range'_1] at hi
        rw [u32_small (n := 2 * i) (by omega), u32_small (by omega), u32_small (by omega), u32_small (by omega)]
        simp [Mesh.addTriangle, Mesh.invalidateCache])
    obtain ⟨c1, c2⟩ := foldl_tris (fun i => [⟨i * 2, i * 2 + 1, (i + 1) % n * 2⟩,
        ⟨i * 2 + 1, (i + 1) % n * 2 + 1, (i + 1) % n * 2⟩]) (fun i (m : Mesh) =>
      (m.addTriangle (u32 (i * 2)) (u32 (i * 2 + 1)) (u32 (u32 (i + 1) % n * 2))).addTriangle (u32 (i * 2 + 1))
        (u32 (u32 (i + 1) % n * 2 + 1)) (u32 (u32 (i + 1) % n * 2))) (List.range' 0 (n - 0)) _
      (by
        intro i hi m
        rw [List.mem_range'_1] at hi
        have := next_cases (i := i) (n := n) (by omega)
        rw [u32_small (n := i + 1) (by omega)]
        generalize (i + 1) % n = j at *
        rw [u32_small (by omega), u32_small (by omega), u32_small (by omega), u32_small (by omega)]
        simp [Mesh.addTriangle, Mesh.invalidateCache])
    simp only [Shape.setMesh]
  · rw [c2, b2, a1]
    rfl
  · rw [c1, b1, a2]
    rfl

/-- One more rounded operation. -/
theorem step {rnd : ℝ → ℝ} (h : RelErr u rnd) {x x' e b : ℝ} (hu0 : 0 ≤ u) (hx : |x' - x| ≤ e) (hb : |x| ≤ b) :
    |rnd x' - x| ≤ e + u * (b + e) := by
  have h1 := h x'
  have h2 := abs_sub_abs_le_abs_sub x' x
  have h3 : u * |x'| ≤ u * (b + e) := mul_le_mul_of_nonneg_left (by linarith) hu0
  have := abs_sub_le (rnd x') x' x
  linarith

/-- The computed angle. -/
theorem angle_err (hF : Accurate u v F) (hu : u ≤ 1 / 1000) {n i : ℕ} (hi : i < n) :
    |cornerAngle F n i - 2 * Real.pi * i / n| ≤ 32 * u := by
  have hu0 := Rounded.relErr_nonneg hF.rnd
  have n0 : (0 : ℝ) < n := by exact_mod_cast Nat.lt_of_le_of_lt (Nat.zero_le i) hi
  have i0 : (0 : ℝ) ≤ i := Nat.cast_nonneg i
  have hin : (i : ℝ) ≤ n := by exact_mod_cast hi.le
  have p0 := Real.pi_pos
  have p1 := Real.pi_lt_d2
  set P := 2 * Real.pi with hP
  have P0 : 0 < P := by positivity
  have uu : u * (u * P) ≤ 1 / 1000 * (u * P) := mul_le_mul_of_nonneg_right hu (by positivity)
  have uP : 0 ≤ u * P := by positivity
  have a : |F.rnd (2 * F.pi) - P| ≤ 3.01 * (u * P) := by
    have hp : |2 * F.pi - P| ≤ 2 * (u * P) := by
      rw [hP, ← mul_sub, abs_mul, abs_of_pos (show (0 : ℝ) < 2 by norm_num)]
      linarith [hF.pi]
    have := step hF.rnd hu0 hp (abs_of_pos P0).le
    linarith
  have b : |F.rnd (F.rnd (2 * F.pi) * i) - P * i| ≤ 4.02 * (u * P) * i := by
    have hp : |F.rnd (2 * F.pi) * i - P * i| ≤ 3.01 * (u * P) * i := by
      rw [← sub_mul, abs_mul, abs_of_nonneg i0]
      exact mul_le_mul_of_nonneg_right a i0
    have := step hF.rnd hu0 hp (abs_of_nonneg (by positivity : 0 ≤ P * i)).le
    have k1 := mul_le_mul_of_nonneg_right uu i0
    have k2 := mul_nonneg uP i0
    linarith
  have c : |cornerAngle F n i - P * i / n| ≤ 5.03 * (u * P) * (i / n) := by
    have hp : |F.rnd (F.rnd (2 * F.pi) * i) / n - P * i / n| ≤ 4.02 * (u * P) * (i / n) := by
      rw [← sub_div, abs_div, abs_of_pos n0, ← mul_div_assoc]
      exact div_le_div_of_nonneg_right b n0.le
    have q0 : 0 ≤ (i : ℝ) / n := by positivity
    have := step hF.rnd hu0 hp (abs_of_nonneg (by positivity : 0 ≤ P * i / n)).le
    rw [mul_div_assoc] at this
    have k1 := mul_le_mul_of_nonneg_right uu q0
    have k2 := mul_nonneg uP q0
    unfold cornerAngle
    rw [mul_div_assoc]
    linarith
  refine c.trans ?_
  have q1 : (i : ℝ) / n ≤ 1 := (div_le_one n0).2 hin
  have k : u * P ≤ u * 6.3 := mul_le_mul_of_nonneg_left (by linarith) hu0
  have k3 : 5.03 * (u * P) * (i / n) ≤ 5.03 * (u * P) * 1 := mul_le_mul_of_nonneg_left q1 (by positivity)
  linarith

/-- The exact corner. (Device of the proofs.) -/
noncomputable def exactCorner (radius : ℝ) (n i : ℕ) : Vec2 :=
  ⟨Real.sin (2 * Real.pi * i / n) * radius, Real.cos (2 * Real.pi * i / n) * radius⟩

theorem corner_err (hF : Accurate u v F) (hu : u ≤ 1 / 1000) (radius : ℝ) {n i : ℕ} (hi : i < n) :
    |(corner F radius n i).x - (exactCorner radius n i).x| ≤ 36 * u * |radius| ∧
      |(corner F radius n i).y - (exactCorner radius n i).y| ≤ 36 * u * |radius| := by
  have hu0 := Rounded.relErr_nonneg hF.rnd
  have ha := angle_err hF hu hi
  set a := cornerAngle F n i with hA
  set b := 2 * Real.pi * i / n with hB
  have key : ∀ x x' : ℝ, |x' - x| ≤ 34 * u → |x| ≤ 1 → |F.rnd (x' * radius) - x * radius| ≤ 36 * u * |radius| := by
    intro x x' h1 h2
    have hp : |x' * radius - x * radius| ≤ 34 * u * |radius| := by
      rw [← sub_mul, abs_mul]
      exact mul_le_mul_of_nonneg_right h1 (abs_nonneg _)
    have hb : |x * radius| ≤ |radius| := by
      rw [abs_mul]
      exact mul_le_of_le_one_left (abs_nonneg _) h2
    have := step hF.rnd hu0 hp hb
    have k : u * (u * |radius|) ≤ 1 / 1000 * (u * |radius|) := mul_le_mul_of_nonneg_right hu (by positivity)
    have : 0 ≤ u * |radius| := by positivity
    linarith
  constructor
  · refine key _ _ ?_ (Real.abs_sin_le_one _)
    have h1 := hF.sin a
    have h2 : |Real.sin a - Real.sin b| ≤ |a - b| := Real.abs_sin_sub_sin_le a b
    have := abs_sub_le (F.sin a) (Real.sin a) (Real.sin b)
    linarith
  · refine key _ _ ?_ (Real.abs_cos_le_one _)
    have h1 := hF.cos a
    have h2 : |Real.cos a - Real.cos b| ≤ |a - b| := Real.abs_cos_sub_cos_le a b
    have := abs_sub_le (F.cos a) (Real.cos a) (Real.cos b)
    linarith

/-- A sine of a fraction of a half turn. -/
theorem sine_low {n t : ℕ} (h0 : 0 < t) (h1 : t < n) : 2 / (n : ℝ) ≤ Real.sin (Real.pi * (t / n)) := by
  have n0 : (0 : ℝ) < n := by exact_mod_cast h0.trans h1
  have p0 := Real.pi_pos
  have low : ∀ x : ℝ, 1 ≤ x → x ≤ n / 2 → 2 / (n : ℝ) ≤ Real.sin (Real.pi * (x / n)) := by
    intro x hx hx2
    have := Real.mul_le_sin (x := Real.pi * (x / n)) (by positivity) (by
      have : x / n ≤ 1 / 2 := by rw [div_le_iff₀ n0]; linarith
      have := mul_le_mul_of_nonneg_left this p0.le
      linarith)
    refine le_trans ?_ this
    rw [show 2 / Real.pi * (Real.pi * (x / n)) = 2 * x / n by field_simp]
    exact div_le_div_of_nonneg_right (by linarith) n0.le
  have t1 : (1 : ℝ) ≤ t := by exact_mod_cast h0
  have t2 : (t : ℝ) + 1 ≤ n := by exact_mod_cast h1
  rcases le_total (t : ℝ) (n / 2) with h | h
  · exact low t t1 h
  · have := low (n - t) (by linarith) (by linarith)
    rwa [sub_div, div_self n0.ne', mul_sub, mul_one, Real.sin_pi_sub] at this

/-- The turn from an edge to a corner. (Device of the proofs.) -/
def turn3 (a b c : Vec2) : ℝ := (b.x - a.x) * (c.y - a.y) - (b.y - a.y) * (c.x - a.x)

theorem turn3_exact (r : ℝ) {n i k : ℕ} (hi : i < n) (hk : k < n) (h1 : k ≠ i) (h2 : k ≠ (i + 1) % n) :
    turn3 (exactCorner r n i) (exactCorner r n ((i + 1) % n)) (exactCorner r n k) ≤ -(32 * r ^ 2 / n ^ 3) := by
  have n0 : (0 : ℝ) < n := by exact_mod_cast Nat.lt_of_le_of_lt (Nat.zero_le i) hi
  have p0 := Real.pi_pos
  have per : Real.sin (2 * Real.pi * ((i + 1) % n : ℕ) / n) = Real.sin (2 * Real.pi * (i + 1) / n) ∧
      Real.cos (2 * Real.pi * ((i + 1) % n : ℕ) / n) = Real.cos (2 * Real.pi * (i + 1) / n) := by
    rcases next_cases hi with ⟨-, h⟩ | ⟨h, h'⟩
    · rw [h]
      push_cast
      exact ⟨rfl, rfl⟩
    · have : (i : ℝ) + 1 = n := by exact_mod_cast h
      rw [h', this, mul_div_assoc _ _ (n : ℝ), mul_div_assoc _ (n : ℝ), div_self n0.ne']
      simp
  have id : ∀ a b c : ℝ, (Real.sin b * r - Real.sin a * r) * (Real.cos c * r - Real.cos a * r) -
      (Real.cos b * r - Real.cos a * r) * (Real.sin c * r - Real.sin a * r) =
      -(4 * r ^ 2) * (Real.sin ((b - a) / 2) * (Real.sin ((c - a) / 2) * Real.sin ((c - b) / 2))) := by
    intro a b c
    have e : Real.sin ((c - b) / 2) =
        Real.sin ((c + a) / 2) * Real.cos ((b + a) / 2) - Real.cos ((c + a) / 2) * Real.sin ((b + a) / 2) := by
      rw [← Real.sin_sub]
      ring_nf
    rw [← sub_mul, ← sub_mul, ← sub_mul, ← sub_mul, Real.sin_sub_sin, Real.sin_sub_sin, Real.cos_sub_cos, Real.cos_sub_cos, e]
    ring
  unfold turn3 exactCorner
  simp only
  rw [per.1, per.2, id]
  have e1 : (2 * Real.pi * (i + 1) / n - 2 * Real.pi * i / n) / 2 = Real.pi * (((1 : ℕ) : ℝ) / n) := by
    push_cast; field_simp; ring
  have e2 : (2 * Real.pi * k / n - 2 * Real.pi * i / n) / 2 = Real.pi * ((k - i) / n) := by field_simp
  have e3 : (2 * Real.pi * k / n - 2 * Real.pi * (i + 1) / n) / 2 = Real.pi * ((k - i - 1) / n) := by field_simp; ring
  rw [e1, e2, e3]
  have q0 : 0 ≤ 2 / (n : ℝ) := by positivity
  have two : 2 / (n : ℝ) * (2 / n) ≤ Real.sin (Real.pi * ((k - i) / n)) * Real.sin (Real.pi * ((k - i - 1) / n)) := by
    have hc := next_cases hi
    rcases Nat.lt_or_ge i k with h | h
    · have a := sine_low (n := n) (t := k - i) (by omega) (by omega)
      have b := sine_low (n := n) (t := k - i - 1) (by omega) (by omega)
      rw [Nat.cast_sub h.le] at a
      rw [Nat.sub_sub, Nat.cast_sub (by omega)] at b
      push_cast at b
      rw [← sub_sub] at b
      exact mul_le_mul a b q0 (q0.trans a)
    · have a := sine_low (n := n) (t := i - k) (by omega) (by omega)
      have b := sine_low (n := n) (t := i + 1 - k) (by omega) (by omega)
      rw [Nat.cast_sub h] at a
      rw [Nat.cast_sub (by omega)] at b
      push_cast at b
      have ea : Real.sin (Real.pi * (((k : ℝ) - i) / n)) = -Real.sin (Real.pi * (((i : ℝ) - k) / n)) := by
        rw [← Real.sin_neg]; congr 1; ring
      have eb : Real.sin (Real.pi * (((k : ℝ) - i - 1) / n)) = -Real.sin (Real.pi * (((i : ℝ) + 1 - k) / n)) := by
        rw [← Real.sin_neg]; congr 1; ring
      rw [ea, eb, neg_mul_neg]
      exact mul_le_mul a b q0 (q0.trans a)
  have n1 : 1 < n := by
    rcases next_cases hi with h | h <;> omega
  have one := sine_low (n := n) (t := 1) one_pos n1
  have all := mul_le_mul one two (by positivity) (q0.trans one)
  have := mul_le_mul_of_nonneg_left all (show 0 ≤ 4 * r ^ 2 by positivity)
  have e : 4 * r ^ 2 * (2 / (n : ℝ) * (2 / n * (2 / n))) = 32 * r ^ 2 / n ^ 3 := by
    field_simp; ring
  rw [neg_mul]
  linarith

/-- The error of a difference of two products. -/
theorem det_err {a b c d a' b' c' d' e m : ℝ} (ha : |a' - a| ≤ e) (hb : |b' - b| ≤ e) (hc : |c' - c| ≤ e) (hd : |d' - d| ≤ e)
    (ma : |a| ≤ m) (mb : |b| ≤ m) (mc : |c| ≤ m) (md : |d| ≤ m) :
    |a' * b' - c' * d' - (a * b - c * d)| ≤ 4 * (m * e) + 2 * (e * e) := by
  have e0 : 0 ≤ e := (abs_nonneg _).trans ha
  have m0 : 0 ≤ m := (abs_nonneg _).trans ma
  have prod : ∀ {a b a' b' : ℝ}, |a' - a| ≤ e → |b' - b| ≤ e → |a| ≤ m → |b| ≤ m → |a' * b' - a * b| ≤ 2 * (m * e) + e * e := by
    intro a b a' b' ha hb ma mb
    rw [show a' * b' - a * b = (a' - a) * (b' - b) + a * (b' - b) + b * (a' - a) by ring]
    refine (abs_add_three _ _ _).trans ?_
    rw [abs_mul, abs_mul, abs_mul]
    have h1 := mul_le_mul ha hb (abs_nonneg _) e0
    have h2 := mul_le_mul ma hb (abs_nonneg _) m0
    have h3 := mul_le_mul mb ha (abs_nonneg _) m0
    linarith
  have h1 := prod ha hb ma mb
  have h2 := prod hc hd mc md
  rw [show a' * b' - c' * d' - (a * b - c * d) = (a' * b' - a * b) - (c' * d' - c * d) by ring]
  have := abs_sub (a' * b' - a * b) (c' * d' - c * d)
  linarith

theorem exact_small (r : ℝ) (n i : ℕ) : |(exactCorner r n i).x| ≤ |r| ∧ |(exactCorner r n i).y| ≤ |r| := by
  constructor
  · show |Real.sin _ * r| ≤ _
    rw [abs_mul]
    exact mul_le_of_le_one_left (abs_nonneg _) (Real.abs_sin_le_one _)
  · show |Real.cos _ * r| ≤ _
    rw [abs_mul]
    exact mul_le_of_le_one_left (abs_nonneg _) (Real.abs_cos_le_one _)

theorem turn3_err (hF : Accurate u v F) (hu : u ≤ 1 / 1000) (r : ℝ) {n i j k : ℕ} (hi : i < n) (hj : j < n) (hk : k < n) :
    |turn3 (corner F r n i) (corner F r n j) (corner F r n k) - turn3 (exactCorner r n i) (exactCorner r n j) (exactCorner r n k)| ≤
      590 * u * r ^ 2 := by
  have hu0 := Rounded.relErr_nonneg hF.rnd
  have di := corner_err hF hu r hi
  have dj := corner_err hF hu r hj
  have dk := corner_err hF hu r hk
  have mi := exact_small r n i
  have mj := exact_small r n j
  have mk := exact_small r n k
  have df : ∀ {a b a' b' : ℝ}, |a' - a| ≤ 36 * u * |r| → |b' - b| ≤ 36 * u * |r| → |a' - b' - (a - b)| ≤ 72 * u * |r| := by
    intro a b a' b' h1 h2
    rw [show a' - b' - (a - b) = (a' - a) - (b' - b) by ring]
    have := abs_sub (a' - a) (b' - b)
    linarith
  have mm : ∀ {a b : ℝ}, |a| ≤ |r| → |b| ≤ |r| → |a - b| ≤ 2 * |r| := by
    intro a b h1 h2
    have := abs_sub a b
    linarith
  have := det_err (df dj.1 di.1) (df dk.2 di.2) (df dj.2 di.2) (df dk.1 di.1) (mm mj.1 mi.1) (mm mk.2 mi.2) (mm mj.2 mi.2) (mm mk.1 mi.1)
  refine this.trans ?_
  rw [show 2 * |r| * (72 * u * |r|) = 144 * u * |r| ^ 2 by ring, show 72 * u * |r| * (72 * u * |r|) = 5184 * (u * (u * |r| ^ 2)) by ring,
    sq_abs]
  have : u * (u * r ^ 2) ≤ 1 / 1000 * (u * r ^ 2) := mul_le_mul_of_nonneg_right hu (by positivity)
  have : 0 ≤ u * r ^ 2 := by positivity
  linarith

theorem corner_convex (hF : Accurate u v F) (hu : u ≤ 1 / 1000) (r : ℝ) {n : ℕ} (hn : 20 * (n : ℝ) ^ 3 * u ≤ 1) :
    ConvexClockwise (corner F r n) n := by
  intro i hi k hk
  have n0 : (0 : ℝ) < n := by exact_mod_cast Nat.lt_of_le_of_lt (Nat.zero_le i) hi
  rcases eq_or_ne k i with rfl | h1
  · linarith
  rcases eq_or_ne k ((i + 1) % n) with rfl | h2
  · linarith
  have e := (abs_le.1 (turn3_err hF hu r hi (Nat.mod_lt (i + 1) (by omega)) hk)).2
  have t := turn3_exact r hi hk h1 h2
  have b : 590 * u * r ^ 2 ≤ 32 * r ^ 2 / n ^ 3 := by
    rw [le_div_iff₀ (by positivity)]
    have := mul_le_mul_of_nonneg_right hn (sq_nonneg r)
    have := sq_nonneg r
    linarith
  show turn3 _ _ _ ≤ 0
  linarith

theorem corner_area (hF : Accurate u v F) (hu : u ≤ 1 / 1000) (r : ℝ) {n : ℕ} :
    |clockwise2 (corner F r n) n - clockwise2 (exactCorner r n) n| ≤ n * (148 * u * r ^ 2) := by
  have hu0 := Rounded.relErr_nonneg hF.rnd
  have sums : ∀ (l : List ℕ) (f g : ℕ → ℝ) (e : ℝ), (∀ i ∈ l, |f i - g i| ≤ e) → |(l.map f).sum - (l.map g).sum| ≤ l.length * e := by
    intro l f g e
    induction l with
    | nil => simp
    | cons a l ih =>
      intro h
      have h1 := h a List.mem_cons_self
      have h2 := ih fun i hi => h i (List.mem_cons_of_mem _ hi)
      simp only [List.map_cons, List.sum_cons, List.length_cons]
      push_cast
      rw [show f a + (l.map f).sum - (g a + (l.map g).sum) = (f a - g a) + ((l.map f).sum - (l.map g).sum) by ring]
      have := abs_add_le (f a - g a) ((l.map f).sum - (l.map g).sum)
      linarith
  have := sums (List.range n) (fun i => (corner F r n ((i + 1) % n)).x * (corner F r n i).y - (corner F r n ((i + 1) % n)).y * (corner F r n i).x)
    (fun i => (exactCorner r n ((i + 1) % n)).x * (exactCorner r n i).y - (exactCorner r n ((i + 1) % n)).y * (exactCorner r n i).x)
    (148 * u * r ^ 2) (by
      intro i hi
      rw [List.mem_range] at hi
      have di := corner_err hF hu r hi
      have dj := corner_err hF hu r (Nat.mod_lt (i + 1) (by omega : 0 < n))
      have mi := exact_small r n i
      have mj := exact_small r n ((i + 1) % n)
      refine (det_err dj.1 di.2 dj.2 di.1 mj.1 mi.2 mj.2 mi.1).trans ?_
      rw [show |r| * (36 * u * |r|) = 36 * u * |r| ^ 2 by ring, show 36 * u * |r| * (36 * u * |r|) = 1296 * (u * (u * |r| ^ 2)) by ring, sq_abs]
      have : u * (u * r ^ 2) ≤ 1 / 1000 * (u * r ^ 2) := mul_le_mul_of_nonneg_right hu (by positivity)
      have : 0 ≤ u * r ^ 2 := by positivity
      linarith)
  rw [List.length_range] at this
  exact this

end Geo.RoundedShapes
