import Verif.Lemmas.RoundedQuaternion
import Verif.Props.Rounded

/-!
# Quaternions of matrices, and poses in messages, in floating point arithmetic (C127)

`u` bounds the relative error of an operation, `e` how far the entries of the matrix are from those of a true rotation.
-/

namespace Geo

open Spec Matrix Rounded

/-- Without rounding the functions are those of `Model/Math` and `Model/Conversions`. -/
theorem C127_exact (a : Mat3) (t : Transform3) (m : Ros.Pose) :
    Rounded.getRotation id a = a.getRotation ∧ getRotationRadicand id a = a.getRotationRadicand ∧
    Rounded.toPose id t = Ros.toPose t ∧ Rounded.ofPose id m = Ros.ofPose m :=
  ⟨rfl, rfl, rfl, rfl⟩

/-- C127: the root is taken of a positive number, and the quaternion read from the matrix differs in no component by more than
`13 (u + e)` from a unit quaternion that turns vectors as the rotation does. -/
theorem C127_read {u e : ℝ} {rnd : ℝ → ℝ} (h : RelErr u rnd) (hs : u + e ≤ 1 / 500) {a Q : Mat3} (hQ : Rotation Q)
    (ha : ∀ i j, |M a i j - M Q i j| ≤ e) :
    0.94 ≤ getRotationRadicand rnd a ∧
    ∃ p : Quat, p.x ^ 2 + p.y ^ 2 + p.z ^ 2 + p.w ^ 2 = 1 ∧ (∀ v, pureQ (Q.mulVec v) * toQ p = toQ p * pureQ v) ∧
      |(Rounded.getRotation rnd a).x - p.x| ≤ 13 * (u + e) ∧ |(Rounded.getRotation rnd a).y - p.y| ≤ 13 * (u + e) ∧
      |(Rounded.getRotation rnd a).z - p.z| ≤ 13 * (u + e) ∧ |(Rounded.getRotation rnd a).w - p.w| ≤ 13 * (u + e) := by
  obtain ⟨r, p, p1, p2, k⟩ := RoundedQuaternion.read h (relErr_nonneg h) ((abs_nonneg _).trans (ha 0 0)) hs hQ ha
  refine ⟨r, p, ?_, ?_, k⟩
  · unfold Quat.length2 at p1
    linarith
  · rw [← p2]
    refine (C06_setRotation ?_).2.1
    rintro rfl
    simp [Quat.length2] at p1

/-- C127: from a matrix to its quaternion and back. No entry is further than `300 (u + e)` from the rotation, and however far
the matrix had drifted, the new one is orthogonal up to `68 u`. -/
theorem C127_roundtrip {u e : ℝ} {rnd : ℝ → ℝ} (h : RelErr u rnd) (hu : u ≤ 1 / 1000) (hs : u + e ≤ 1 / 500) {a Q : Mat3}
    (hQ : Rotation Q) (ha : ∀ i j, |M a i j - M Q i j| ≤ e) :
    (∀ i j, |M (Rounded.setRotation rnd (Rounded.getRotation rnd a)) i j - M Q i j| ≤ 300 * (u + e)) ∧
    NearlyOrthogonal (68 * u) (Rounded.setRotation rnd (Rounded.getRotation rnd a)) := by
  obtain ⟨R, -, r2, r3, r4⟩ := RoundedQuaternion.roundtrip h hu hs hQ ha
  refine ⟨fun i j => ?_, r4⟩
  have := (abs_nonneg _).trans (ha 0 0)
  have := relErr_nonneg h
  linarith [abs_sub_le (M (Rounded.setRotation rnd (Rounded.getRotation rnd a)) i j) (M R i j) (M Q i j), r2 i j, r3 i j]

/-- C127: from a quaternion to its matrix and back. The result differs in no component by more than `260 u` from the
normalised quaternion or from its opposite. -/
theorem C127_back {u : ℝ} {rnd : ℝ → ℝ} (h : RelErr u rnd) (hu : u ≤ 1 / 10000) {q : Quat} (hq : q ≠ ⟨0, 0, 0, 0⟩) :
    let l := Real.sqrt (q.x ^ 2 + q.y ^ 2 + q.z ^ 2 + q.w ^ 2)
    let r := Rounded.getRotation rnd (Rounded.setRotation rnd q)
    ∃ s : ℝ, (s = 1 ∨ s = -1) ∧ |r.x - s * (q.x / l)| ≤ 260 * u ∧ |r.y - s * (q.y / l)| ≤ 260 * u ∧
      |r.z - s * (q.z / l)| ≤ 260 * u ∧ |r.w - s * (q.w / l)| ≤ 260 * u := by
  intro l r
  have hu0 := relErr_nonneg h
  have hR := setRotation_rotation hq
  obtain ⟨-, p, p1, p2, px, py, pz, pw⟩ := RoundedQuaternion.read h hu0 (e := 19 * u) (by linarith) (by linarith) hR
    (setRotation_err h hu0 (by linarith) (length2_pos hq))
  obtain ⟨-, g1, g2⟩ := getRotation_correct hR
  have hl : q.length = l := by
    simp only [Quat.length, l]
    congr 1
    ring
  have key : p = q.normalized ∨ p = q.normalized.scale (-1) := by
    rcases (C06_setRotation hq).2.2.2.1 with k | k <;> rw [k] at g1 g2 <;>
      rcases setRotation_inj g1 p1 (g2.trans p2.symm) with k' | k' <;> rw [k']
    · exact .inl rfl
    · exact .inr rfl
    · exact .inr rfl
    · left
      simp [Quat.scale]
  have e1 : 13 * (u + 19 * u) = 260 * u := by ring
  rw [e1] at px py pz pw
  rcases key with rfl | rfl
  · refine ⟨1, .inl rfl, ?_, ?_, ?_, ?_⟩ <;> rw [one_mul, ← hl] <;> assumption
  · refine ⟨-1, .inr rfl, ?_, ?_, ?_, ?_⟩ <;> rw [mul_comm, ← hl] <;> assumption

/-- C127: a pose that is sent as a message, received and sent on, `n + 1` times in all. The translation stays as it is, the
matrix is orthogonal up to `68 u` at every receiver, and its distance from the rotation grows linearly with the number of
messages. -/
theorem C127_hops {u e : ℝ} {rnd : ℝ → ℝ} (h : RelErr u rnd) (hu : u ≤ 1 / 10000) (hs : u + e ≤ 1 / 500) {T : Transform3} {Q : Mat3}
    (hQ : Rotation Q) (ha : ∀ i j, |M T.R i j - M Q i j| ≤ e) (n : ℕ) :
    ((hop rnd)^[n + 1] T).t = T.t ∧ NearlyOrthogonal (68 * u) ((hop rnd)^[n + 1] T).R ∧
    (∀ i j, |M ((hop rnd)^[n + 1] T).R i j - M Q i j| ≤ 300 * (u + e) + n * (5400 * u)) ∧
    NearMat (900 * (u + e) + n * (16200 * u)) ((hop rnd)^[n + 1] T).R Q := by
  obtain ⟨t, o, R, r1, r2, r3⟩ := RoundedQuaternion.hops h hu hs hQ ha n
  have hu0 := relErr_nonneg h
  have he := (abs_nonneg _).trans (ha 0 0)
  have k : ∀ i j, |M ((hop rnd)^[n + 1] T).R i j - M Q i j| ≤ 300 * (u + e) + n * (5400 * u) := by
    intro i j
    linarith [abs_sub_le (M ((hop rnd)^[n + 1] T).R i j) (M R i j) (M Q i j), r2 i j, r3 i j]
  refine ⟨t, o, k, ?_⟩
  have := RoundedQuaternion.nearMat_of k
  rw [show 3 * (300 * (u + e) + n * (5400 * u)) = 900 * (u + e) + n * (16200 * u) by ring] at this
  exact this

/-- C127 case: a pose made from a quaternion, in `double`, sent through a thousand messages: every vector still points within
`2⁻²⁸` of its length of where the quaternion turns it. -/
example (q : Quat) (hq : q ≠ ⟨0, 0, 0, 0⟩) (t : Vec3) :
    NearMat (1 / 2 ^ 28) ((hop toDouble)^[999 + 1] ⟨Rounded.setRotation toDouble q, t⟩).R (Mat3.setRotation q) := by
  have h := (C127_hops C93_roundings.1 (by norm_num) (e := 19 * (1 / 2 ^ 53)) (by norm_num)
    (T := ⟨Rounded.setRotation toDouble q, t⟩) (setRotation_rotation hq)
    (setRotation_err C93_roundings.1 (by norm_num) (by norm_num) (length2_pos hq)) 999).2.2.2
  intro f
  refine (h f).trans (mul_le_mul_of_nonneg_right ?_ (len_nonneg _))
  norm_num

/-- C127 case: half turns about the three axes, with errors, reach the other branches. -/
example : Rotation ⟨1, 0, 0, 0, -1, 0, 0, 0, -1⟩ ∧ (1 / 10000 : ℝ) + 1 / 1000 ≤ 1 / 500 ∧
    ∀ i j, |M ⟨1, 1 / 1000, 0, 0, -1, 0, 0, 0, -999 / 1000⟩ i j - M ⟨1, 0, 0, 0, -1, 0, 0, 0, -1⟩ i j| ≤ 1 / 1000 := by
  refine ⟨?_, by norm_num, fun i j => ?_⟩
  · rw [rotation_iff, orth_iff]; norm_num
  · fin_cases i <;> fin_cases j <;> (simp [M]; try norm_num [abs_le])

/-- The exact round trip of C05 and C72 does not hold for doubles: a quarter turn about the vertical axis, all of whose entries
are whole numbers, comes out of a message with `2⁻⁵²` in the corner instead of 0. -/
theorem C127_quarter_turn (t : Vec3) :
    Rotation ⟨0, -1, 0, 1, 0, 0, 0, 0, 1⟩ ∧ (hop toDouble ⟨⟨0, -1, 0, 1, 0, 0, 0, 0, 1⟩, t⟩).R.xx = 1 / 2 ^ 52 := by
  refine ⟨by rw [rotation_iff, orth_iff]; norm_num, ?_⟩
  have z := toDouble_zero
  have o : toDouble 1 = 1 := by
    have := toDouble_eq (x := 1) (-52) (m := 2 ^ 52) (by norm_num) (by norm_num) (by norm_num)
    rw [this]; norm_num
  have two : toDouble 2 = 2 := by
    have := toDouble_eq (x := 2) (-51) (m := 2 ^ 52) (by norm_num) (by norm_num) (by norm_num)
    rw [this]; norm_num
  have s0 : toDouble (Real.sqrt 2) = 6369051672525773 / 2 ^ 52 := by
    have l1 : 6369051672525772.51 / 2 ^ 52 ≤ Real.sqrt 2 := Real.le_sqrt_of_sq_le (by norm_num)
    have l2 : Real.sqrt 2 ≤ 6369051672525773.49 / 2 ^ 52 := Real.sqrt_le_iff.2 ⟨by norm_num, by norm_num⟩
    norm_num at l1 l2
    have := toDouble_eq (x := Real.sqrt 2) (-52) (m := 6369051672525773) (by norm_num) (by norm_num)
      (by rw [abs_lt]; constructor <;> norm_num <;> linarith)
    rw [this]; norm_num
  have s1 : toDouble (6369051672525773 / 2 ^ 52 / 2) = 6369051672525773 / 2 ^ 53 := by
    have := toDouble_eq (x := 6369051672525773 / 2 ^ 52 / 2) (-53) (m := 6369051672525773) (by norm_num) (by norm_num)
      (by norm_num [abs_lt])
    rw [this]; norm_num
  have s2 : toDouble (0.5 / (6369051672525773 / 2 ^ 52)) = 6369051672525772 / 2 ^ 54 := by
    have := toDouble_eq (x := 0.5 / (6369051672525773 / 2 ^ 52)) (-54) (m := 6369051672525772) (by norm_num) (by norm_num)
      (by norm_num [abs_lt])
    rw [this]; norm_num
  have s3 : toDouble (2 * (6369051672525772 / 2 ^ 54)) = 6369051672525772 / 2 ^ 53 := by
    have := toDouble_eq (x := 2 * (6369051672525772 / 2 ^ 54)) (-53) (m := 6369051672525772) (by norm_num) (by norm_num)
      (by norm_num [abs_lt])
    rw [this]; norm_num
  have s4 : toDouble (6369051672525772 / 2 ^ 53 * (6369051672525772 / 2 ^ 53)) = 9007199254740990 / 2 ^ 54 := by
    have := toDouble_eq (x := 6369051672525772 / 2 ^ 53 * (6369051672525772 / 2 ^ 53)) (-54) (m := 9007199254740990)
      (by norm_num) (by norm_num) (by norm_num [abs_lt])
    rw [this]; norm_num
  have s4' : toDouble (9007199254740990 / 2 ^ 54) = 9007199254740990 / 2 ^ 54 := by
    have := toDouble_eq (x := 9007199254740990 / 2 ^ 54) (-54) (m := 9007199254740990)
      (by norm_num) (by norm_num) (by norm_num [abs_lt])
    rw [this]; norm_num
  have s5 : toDouble (6369051672525773 / 2 ^ 53 * (6369051672525773 / 2 ^ 53)) = 4503599627370497 / 2 ^ 53 := by
    have := toDouble_eq (x := 6369051672525773 / 2 ^ 53 * (6369051672525773 / 2 ^ 53)) (-53) (m := 4503599627370497)
      (by norm_num) (by norm_num) (by norm_num [abs_lt])
    rw [this]; norm_num
  have s6 : toDouble (9007199254740990 / 2 ^ 54 + 4503599627370497 / 2 ^ 53) = 1 := by
    rw [show (9007199254740990 / 2 ^ 54 + 4503599627370497 / 2 ^ 53 : ℝ) = 1 by norm_num, o]
  have s7 : toDouble (6369051672525772 / 2 ^ 53 * 2) = 6369051672525772 / 2 ^ 52 := by
    have := toDouble_eq (x := 6369051672525772 / 2 ^ 53 * 2) (-52) (m := 6369051672525772) (by norm_num) (by norm_num)
      (by norm_num [abs_lt])
    rw [this]; norm_num
  have s8 : toDouble (6369051672525772 / 2 ^ 53 * (6369051672525772 / 2 ^ 52)) = 9007199254740990 / 2 ^ 53 := by
    have := toDouble_eq (x := 6369051672525772 / 2 ^ 53 * (6369051672525772 / 2 ^ 52)) (-53) (m := 9007199254740990)
      (by norm_num) (by norm_num) (by norm_num [abs_lt])
    rw [this]; norm_num
  have s8' : toDouble (9007199254740990 / 2 ^ 53) = 9007199254740990 / 2 ^ 53 := by
    have := toDouble_eq (x := 9007199254740990 / 2 ^ 53) (-53) (m := 9007199254740990)
      (by norm_num) (by norm_num) (by norm_num [abs_lt])
    rw [this]; norm_num
  have s9 : toDouble (1 - 9007199254740990 / 2 ^ 53) = 1 / 2 ^ 52 := by
    have := toDouble_eq (x := 1 - 9007199254740990 / 2 ^ 53) (-104) (m := 4503599627370496)
      (by norm_num) (by norm_num) (by norm_num [abs_lt])
    rw [this]; norm_num
  have q : Rounded.getRotation toDouble ⟨0, -1, 0, 1, 0, 0, 0, 0, 1⟩ = ⟨0, 0, 6369051672525772 / 2 ^ 53, 6369051672525773 / 2 ^ 53⟩ := by
    unfold Rounded.getRotation
    simp only [add_zero, z, zero_add, o, show (1 : ℝ) > 0 from one_pos, if_true, show (1 : ℝ) + 1 = 2 by norm_num, two, s0, s1, s2,
      sub_self, zero_mul, sub_neg_eq_add, s3]
    rfl
  unfold hop Rounded.ofPose Rounded.toPose
  dsimp only [Ros.toQuaternion, Ros.ofQuaternion]
  rw [q]
  unfold Rounded.setRotation
  dsimp only
  simp only [zero_mul, z, zero_add, s4, s4', s5, s6, div_one, two, s7, s8, s8', s9, mul_zero]

end Geo
