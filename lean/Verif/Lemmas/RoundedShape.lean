import Verif.Model.RoundedShape
import Verif.Spec.RoundedShape
import Verif.Lemmas.Rounded
import Verif.Lemmas.ClearCase
import Verif.Lemmas.Shape
import Verif.Lemmas.Sphere
import Mathlib.Tactic.Linarith
import Mathlib.Tactic.Positivity
import Mathlib.Tactic.NormNum

/-!
# Helper lemmas on `Shape::contains` in floating point arithmetic
-/

namespace Geo

open Spec

/-- `x'` approximates the quantity `x` of degree `n` in the coordinates, for coordinates of size `r` and rounding errors of
relative size `u`. (Device of the proofs.) -/
structure Ap (u r : ℝ) (n : ℕ) (b k x x' : ℝ) : Prop where
  bd : |x| ≤ b * r ^ n
  er : |x' - x| ≤ k * u * r ^ n

namespace Ap

variable {u r b k c l x x' y y' : ℝ} {n m : ℕ} {rnd : ℝ → ℝ}

theorem refl (hx : |x| ≤ b * r ^ n) : Ap u r n b 0 x x := ⟨hx, by simp⟩

theorem mono (hr : 0 ≤ r) (hu : 0 ≤ u) (h : Ap u r n b k x x') (hb : b ≤ c) (hk : k ≤ l) : Ap u r n c l x x' :=
  ⟨h.bd.trans (mul_le_mul_of_nonneg_right hb (by positivity)),
    h.er.trans (mul_le_mul_of_nonneg_right (mul_le_mul_of_nonneg_right hk hu) (by positivity))⟩

theorem abs_le (h : Ap u r n b k x x') : |x'| ≤ (b + k * u) * r ^ n := by
  have : x' = x + (x' - x) := by ring
  rw [this]
  refine (abs_add_le _ _).trans ?_
  have := h.bd
  have := h.er
  linarith

theorem round (hr : 0 ≤ r) (hu : 0 ≤ u) (hu1 : u ≤ 1 / 1000) (hrnd : RelErr u rnd) (hk : 0 ≤ k) (h : Ap u r n b k x x') :
    Ap u r n b (1.001 * k + b) x (rnd x') := by
  refine ⟨h.bd, ?_⟩
  have h1 := hrnd x'
  have h2 := mul_le_mul_of_nonneg_left h.abs_le hu
  have h3 := h.er
  have e : rnd x' - x = (rnd x' - x') + (x' - x) := by ring
  rw [e]
  refine (abs_add_le _ _).trans ?_
  have h4 : k * u * u * r ^ n ≤ k * u * (1 / 1000) * r ^ n :=
    mul_le_mul_of_nonneg_right (mul_le_mul_of_nonneg_left hu1 (by positivity)) (by positivity)
  linarith

theorem mul (hr : 0 ≤ r) (hu : 0 ≤ u) (hu1 : u ≤ 1 / 1000) (hb : 0 ≤ b) (hk : 0 ≤ k) (hl : 0 ≤ l)
    (h : Ap u r n b k x x') (g : Ap u r m c l y y') :
    Ap u r (n + m) (b * c) (k * c + b * l + k * l / 1000) (x * y) (x' * y') := by
  have hm : 0 ≤ r ^ m := by positivity
  have hn : 0 ≤ r ^ n := by positivity
  constructor
  · rw [abs_mul, pow_add]
    refine (mul_le_mul h.bd g.bd (abs_nonneg _) (by positivity)).trans (le_of_eq (by ring))
  · have e : x' * y' - x * y = (x' - x) * y + x * (y' - y) + (x' - x) * (y' - y) := by ring
    rw [e, pow_add]
    refine (abs_add_le _ _).trans ((add_le_add (abs_add_le _ _) le_rfl).trans ?_)
    rw [abs_mul, abs_mul, abs_mul]
    have h1 := mul_le_mul h.er g.bd (abs_nonneg _) (by positivity)
    have h2 := mul_le_mul h.bd g.er (abs_nonneg _) (by positivity)
    have h3 := mul_le_mul h.er g.er (abs_nonneg _) (by positivity)
    have h4 : k * l * u * u * (r ^ n * r ^ m) ≤ k * l * u * (1 / 1000) * (r ^ n * r ^ m) :=
      mul_le_mul_of_nonneg_right (mul_le_mul_of_nonneg_left hu1 (by positivity)) (by positivity)
    linarith

theorem add (h : Ap u r n b k x x') (g : Ap u r n c l y y') : Ap u r n (b + c) (k + l) (x + y) (x' + y') := by
  constructor
  · refine (abs_add_le _ _).trans ?_
    have := h.bd; have := g.bd; linarith
  · have e : x' + y' - (x + y) = (x' - x) + (y' - y) := by ring
    rw [e]
    refine (abs_add_le _ _).trans ?_
    have := h.er; have := g.er; linarith

theorem neg (h : Ap u r n b k x x') : Ap u r n b k (-x) (-x') := by
  refine ⟨by rw [abs_neg]; exact h.bd, ?_⟩
  rw [show -x' - -x = -(x' - x) by ring, abs_neg]; exact h.er

theorem sub (h : Ap u r n b k x x') (g : Ap u r n c l y y') : Ap u r n (b + c) (k + l) (x - y) (x' - y') := by
  rw [sub_eq_add_neg, sub_eq_add_neg]
  exact h.add g.neg

end Ap

/-- The setting of the error analysis. (Device of the proofs.) -/
structure Rnd (u r : ℝ) (rnd : ℝ → ℝ) : Prop where
  r0 : 0 ≤ r
  u0 : 0 ≤ u
  u1 : u ≤ 1 / 1000
  err : RelErr u rnd

/-- All coordinates are at most `b` times the size. (Device of the proofs.) -/
def Within (b r : ℝ) (a : Vec3) : Prop := |a.x| ≤ b * r ∧ |a.y| ≤ b * r ∧ |a.z| ≤ b * r

/-- Componentwise approximation. (Device of the proofs.) -/
def ApV (u r : ℝ) (n : ℕ) (b k : ℝ) (a a' : Vec3) : Prop :=
  Ap u r n b k a.x a'.x ∧ Ap u r n b k a.y a'.y ∧ Ap u r n b k a.z a'.z

section
variable {u r : ℝ} {rnd : ℝ → ℝ}

theorem Within.ap {b : ℝ} {a : Vec3} (h : Within b r a) : ApV u r 1 b 0 a a :=
  ⟨.refl (by simpa using h.1), .refl (by simpa using h.2.1), .refl (by simpa using h.2.2)⟩

theorem Rnd.add (R : Rnd u r rnd) {n : ℕ} {b k c l x x' y y' : ℝ} (hk : 0 ≤ k) (hl : 0 ≤ l)
    (h : Ap u r n b k x x') (g : Ap u r n c l y y') {d j : ℝ} (hd : b + c ≤ d) (hj : 1.001 * (k + l) + (b + c) ≤ j) :
    Ap u r n d j (x + y) (rnd (x' + y')) :=
  ((h.add g).round R.r0 R.u0 R.u1 R.err (by positivity)).mono R.r0 R.u0 hd hj

theorem Rnd.sub (R : Rnd u r rnd) {n : ℕ} {b k c l x x' y y' : ℝ} (hk : 0 ≤ k) (hl : 0 ≤ l)
    (h : Ap u r n b k x x') (g : Ap u r n c l y y') {d j : ℝ} (hd : b + c ≤ d) (hj : 1.001 * (k + l) + (b + c) ≤ j) :
    Ap u r n d j (x - y) (rnd (x' - y')) :=
  ((h.sub g).round R.r0 R.u0 R.u1 R.err (by positivity)).mono R.r0 R.u0 hd hj

theorem Rnd.mul (R : Rnd u r rnd) {n m : ℕ} {b k c l x x' y y' : ℝ} (hb : 0 ≤ b) (hc : 0 ≤ c) (hk : 0 ≤ k) (hl : 0 ≤ l)
    (h : Ap u r n b k x x') (g : Ap u r m c l y y') {d j : ℝ} (hd : b * c ≤ d)
    (hj : 1.001 * (k * c + b * l + k * l / 1000) + b * c ≤ j) :
    Ap u r (n + m) d j (x * y) (rnd (x' * y')) :=
  ((h.mul R.r0 R.u0 R.u1 hb hk hl g).round R.r0 R.u0 R.u1 R.err (by positivity)).mono R.r0 R.u0 hd hj

/-- Error of a rounded vector difference. -/
theorem Rnd.vsub (R : Rnd u r rnd) {n : ℕ} {b k c l : ℝ} {a a' e e' : Vec3} (hk : 0 ≤ k) (hl : 0 ≤ l)
    (h : ApV u r n b k a a') (g : ApV u r n c l e e') {d j : ℝ} (hd : b + c ≤ d) (hj : 1.001 * (k + l) + (b + c) ≤ j) :
    ApV u r n d j (a - e) (Rounded.sub rnd a' e') :=
  ⟨R.sub hk hl h.1 g.1 hd hj, R.sub hk hl h.2.1 g.2.1 hd hj, R.sub hk hl h.2.2 g.2.2 hd hj⟩

/-- Error of a rounded vector product. -/
theorem Rnd.vcross (R : Rnd u r rnd) {n m : ℕ} {b k c l : ℝ} {a a' e e' : Vec3}
    (hb : 0 ≤ b) (hc : 0 ≤ c) (hk : 0 ≤ k) (hl : 0 ≤ l)
    (h : ApV u r n b k a a') (g : ApV u r m c l e e') {d j f i : ℝ} (hd : b * c ≤ d)
    (hj : 1.001 * (k * c + b * l + k * l / 1000) + b * c ≤ j) (hf : d + d ≤ f) (hi : 1.001 * (j + j) + (d + d) ≤ i) :
    ApV u r (n + m) f i (a.cross e) (Rounded.cross rnd a' e') := by
  have hj0 : 0 ≤ j := le_trans (by positivity) hj
  have M : ∀ {x x' y y' : ℝ}, Ap u r n b k x x' → Ap u r m c l y y' → Ap u r (n + m) d j (x * y) (rnd (x' * y')) :=
    fun p q => R.mul hb hc hk hl p q hd hj
  exact ⟨R.sub hj0 hj0 (M h.2.1 g.2.2) (M h.2.2 g.2.1) hf hi, R.sub hj0 hj0 (M h.2.2 g.1) (M h.1 g.2.2) hf hi,
    R.sub hj0 hj0 (M h.1 g.2.1) (M h.2.1 g.1) hf hi⟩

/-- Error of a rounded inner product. -/
theorem Rnd.vdot (R : Rnd u r rnd) {n m : ℕ} {b k c l : ℝ} {a a' e e' : Vec3}
    (hb : 0 ≤ b) (hc : 0 ≤ c) (hk : 0 ≤ k) (hl : 0 ≤ l)
    (h : ApV u r n b k a a') (g : ApV u r m c l e e') {d j i f o : ℝ} (hd : b * c ≤ d)
    (hj : 1.001 * (k * c + b * l + k * l / 1000) + b * c ≤ j) (hi : 1.001 * (j + j) + (d + d) ≤ i)
    (hf : d + d + d ≤ f) (ho : 1.001 * (i + j) + (d + d + d) ≤ o) :
    Ap u r (n + m) f o (a.dot e) (Rounded.dot rnd a' e') := by
  have hj0 : 0 ≤ j := le_trans (by positivity) hj
  have hd0 : 0 ≤ d := le_trans (by positivity) hd
  have hi0 : 0 ≤ i := le_trans (by positivity) hi
  have M : ∀ {x x' y y' : ℝ}, Ap u r n b k x x' → Ap u r m c l y y' → Ap u r (n + m) d j (x * y) (rnd (x' * y')) :=
    fun p q => R.mul hb hc hk hl p q hd hj
  exact R.add hi0 hj0 (R.add hj0 hj0 (M h.1 g.1) (M h.2.1 g.2.1) le_rfl hi) (M h.2.2 g.2.2) hf ho

/-- Error of a rounded side product. -/
theorem Rnd.side_err (R : Rnd u r rnd) {a b c d : Vec3} (ha : Within 1.11 r a) (hb : Within 1.11 r b) (hc : Within 1.11 r c)
    (hd : Within 1.11 r d) :
    |Rounded.sideProduct rnd (Rounded.newLS rnd a b) (Rounded.newLS rnd c d) - vol4 a b c d| ≤ 220 * u * r ^ 3 := by
  have U : ∀ {a b : Vec3}, Within 1.11 r a → Within 1.11 r b →
      ApV u r 1 2.22 2.22 (b - a) (Rounded.sub rnd b a) := fun ha hb =>
    R.vsub le_rfl le_rfl hb.ap ha.ap (by norm_num) (by norm_num)
  have V : ∀ {a b : Vec3}, Within 1.11 r a → Within 1.11 r b →
      ApV u r 2 2.4642 4.931 (a.cross b) (Rounded.cross rnd a b) := fun ha hb =>
    R.vcross (n := 1) (m := 1) (d := 1.2321) (j := 1.2321) (by norm_num) (by norm_num) le_rfl le_rfl ha.ap hb.ap
      (by norm_num) (by norm_num) (by norm_num) (by norm_num)
  have D : ∀ {a b c d : Vec3}, Within 1.11 r a → Within 1.11 r b → Within 1.11 r c → Within 1.11 r d →
      Ap u r 3 16.412 93.27 ((b - a).dot (c.cross d)) (Rounded.dot rnd (Rounded.sub rnd b a) (Rounded.cross rnd c d)) :=
    fun ha hb hc hd => R.vdot (n := 1) (m := 2) (d := 5.4706) (j := 21.92) (i := 54.84) (by norm_num) (by norm_num)
      (by norm_num) (by norm_num) (U ha hb) (V hc hd) (by norm_num) (by norm_num) (by norm_num) (by norm_num) (by norm_num)
  have := R.add (d := 32.9) (j := 220) (by norm_num) (by norm_num) (D ha hb hc hd) (D hc hd ha hb) (by norm_num) (by norm_num)
  have h := this.er
  rw [show (b - a).dot (c.cross d) + (d - c).dot (a.cross b) = Geo.sideProduct (LS.new a b) (LS.new c d) from rfl,
    sideProduct_vol] at h
  exact h

/-- The rounded squared length is off by a relative error. -/
theorem Rnd.length2 (R : Rnd u r rnd) (a : Vec3) : |Rounded.length2 rnd a - a.length2| ≤ 3.01 * u * a.length2 := by
  have hu := R.u0
  have hu1 := R.u1
  have key : ∀ {x x' k : ℝ}, 0 ≤ x → 0 ≤ k → |x' - x| ≤ k * u * x → |rnd x' - x| ≤ (1.001 * k + 1) * u * x := by
    intro x x' k hx hk h
    have A : Ap u x 1 1 k x x' := ⟨by simp [abs_of_nonneg hx], by simpa using h⟩
    have := (A.round hx hu hu1 R.err hk).er
    simpa using this
  have hx := mul_self_nonneg a.x
  have hy := mul_self_nonneg a.y
  have hz := mul_self_nonneg a.z
  have k1 := key hx le_rfl (x' := a.x * a.x) (by simp)
  have k2 := key hy le_rfl (x' := a.y * a.y) (by simp)
  have k3 := key hz le_rfl (x' := a.z * a.z) (by simp)
  have k4 := key (x := a.x * a.x + a.y * a.y) (x' := rnd (a.x * a.x) + rnd (a.y * a.y)) (k := 1) (by linarith) (by norm_num)
    (by
      rw [show rnd (a.x * a.x) + rnd (a.y * a.y) - (a.x * a.x + a.y * a.y) =
        (rnd (a.x * a.x) - a.x * a.x) + (rnd (a.y * a.y) - a.y * a.y) by ring]
      refine (abs_add_le _ _).trans ?_
      linarith)
  have hz' : 0 ≤ u * (a.z * a.z) := by positivity
  have k5 := key (x := a.x * a.x + a.y * a.y + a.z * a.z)
    (x' := rnd (rnd (a.x * a.x) + rnd (a.y * a.y)) + rnd (a.z * a.z)) (k := 2.001) (by linarith) (by norm_num)
    (by
      rw [show rnd (rnd (a.x * a.x) + rnd (a.y * a.y)) + rnd (a.z * a.z) - (a.x * a.x + a.y * a.y + a.z * a.z) =
        (rnd (rnd (a.x * a.x) + rnd (a.y * a.y)) - (a.x * a.x + a.y * a.y)) + (rnd (a.z * a.z) - a.z * a.z) by ring]
      refine (abs_add_le _ _).trans ?_
      linarith)
  have h0 : 0 ≤ u * (a.x * a.x + a.y * a.y + a.z * a.z) := by positivity
  show |rnd (rnd (rnd (a.x * a.x) + rnd (a.y * a.y)) + rnd (a.z * a.z)) - (a.x * a.x + a.y * a.y + a.z * a.z)| ≤
    3.01 * u * (a.x * a.x + a.y * a.y + a.z * a.z)
  linarith

/-- The rounded length is off by a relative error. -/
theorem Rnd.sqrt (R : Rnd u r rnd) {x x' : ℝ} (hx : 0 ≤ x) (h : |x' - x ^ 2| ≤ 3.01 * u * x ^ 2) :
    |rnd (Real.sqrt x') - x| ≤ 2.52 * u * x := by
  have hu := R.u0
  have hu1 := R.u1
  rw [abs_le] at h
  have hq : |Real.sqrt x' - x| ≤ 1.51 * u * x := by
    rw [abs_le]
    constructor
    · have : x * (1 - 1.51 * u) ≤ Real.sqrt x' := by
        refine Real.le_sqrt_of_sq_le ?_
        have : (x * (1 - 1.51 * u)) ^ 2 = x ^ 2 * (1 - 3.02 * u + 2.2801 * (u * u)) := by ring
        rw [this]
        have h1 : u * u ≤ 0.001 * u := by nlinarith
        have h2 : x ^ 2 * (1 - 3.02 * u + 2.2801 * (u * u)) ≤ x ^ 2 * (1 - 3.01 * u) :=
          mul_le_mul_of_nonneg_left (by linarith) (sq_nonneg _)
        linarith [h.1]
      linarith
    · have : Real.sqrt x' ≤ x * (1 + 1.51 * u) := by
        refine Real.sqrt_le_iff.2 ⟨by positivity, ?_⟩
        have : (x * (1 + 1.51 * u)) ^ 2 = x ^ 2 * (1 + 3.02 * u + 2.2801 * (u * u)) := by ring
        rw [this]
        have h2 : x ^ 2 * (1 + 3.01 * u) ≤ x ^ 2 * (1 + 3.02 * u + 2.2801 * (u * u)) :=
          mul_le_mul_of_nonneg_left (by nlinarith) (sq_nonneg _)
        linarith [h.2]
      linarith
  have A : Ap u x 1 1 1.51 x (Real.sqrt x') := ⟨by simp [abs_of_nonneg hx], by simpa using hq⟩
  have := ((A.round hx hu hu1 R.err (by norm_num)).mono hx hu le_rfl (l := 2.52) (by norm_num)).er
  simpa using this

theorem Rnd.length (R : Rnd u r rnd) (a : Vec3) : |Rounded.length rnd a - a.length| ≤ 2.52 * u * a.length := by
  refine R.sqrt (Real.sqrt_nonneg _) ?_
  have : a.length ^ 2 = a.length2 := Real.sq_sqrt
    (by have := mul_self_nonneg a.x; have := mul_self_nonneg a.y; have := mul_self_nonneg a.z; linarith)
  rw [this]
  exact R.length2 a

/-- Lengths of close vectors are close. -/
theorem length_near {a b : Vec3} {e : ℝ} (hx : |a.x - b.x| ≤ e) (hy : |a.y - b.y| ≤ e) (hz : |a.z - b.z| ≤ e) :
    |a.length - b.length| ≤ 1.7321 * e := by
  have t : ∀ a b : Vec3, |a.x - b.x| ≤ e → |a.y - b.y| ≤ e → |a.z - b.z| ≤ e → a.length ≤ b.length + 1.7321 * e := by
    intro a b hx hy hz
    have he : 0 ≤ e := (abs_nonneg _).trans hx
    have h1 : len ![a.x, a.y, a.z] ≤ len ![b.x, b.y, b.z] + len ![a.x - b.x, a.y - b.y, a.z - b.z] := by
      have := len_add ![b.x, b.y, b.z] ![a.x - b.x, a.y - b.y, a.z - b.z]
      simpa using this
    have h2 : len ![a.x - b.x, a.y - b.y, a.z - b.z] ≤ 1.7321 * e := by
      refine Real.sqrt_le_iff.2 ⟨by positivity, ?_⟩
      have s : ∀ z : ℝ, |z| ≤ e → z ^ 2 ≤ e ^ 2 := fun z hz => by
        rw [← sq_abs]; exact pow_le_pow_left₀ (abs_nonneg _) hz 2
      simp [Fin.sum_univ_three]
      nlinarith [s _ hx, s _ hy, s _ hz, sq_nonneg e]
    have h3 : ∀ c : Vec3, c.length = len ![c.x, c.y, c.z] := by
      intro c
      simp [Vec3.length, len, Fin.sum_univ_three, sq]
    rw [h3, h3]
    linarith
  rw [abs_le]
  constructor
  · have := t b a (by rw [abs_sub_comm]; exact hx) (by rw [abs_sub_comm]; exact hy) (by rw [abs_sub_comm]; exact hz)
    linarith
  · have := t a b hx hy hz
    linarith

/-- Error of a rounded area. -/
theorem Rnd.area (R : Rnd u r rnd) {a b c : Vec3} (ha : Within 1 r a) (hb : Within 1 r b) (hc : Within 1 r c) :
    Ap u r 2 7 53.7 (triangleArea a b c) (Rounded.triangleArea rnd a b c) := by
  have hu := R.u0
  have hu1 := R.u1
  have hr := R.r0
  have U : ∀ {a b : Vec3}, Within 1 r a → Within 1 r b →
      ApV u r 1 2 2 (b - a) (Rounded.sub rnd b a) := fun ha hb =>
    R.vsub le_rfl le_rfl hb.ap ha.ap (by norm_num) (by norm_num)
  have V : ApV u r 2 8 32.06 ((a - b).cross (a - c)) (Rounded.cross rnd (Rounded.sub rnd a b) (Rounded.sub rnd a c)) :=
    R.vcross (n := 1) (m := 1) (d := 4) (j := 12.013) (by norm_num) (by norm_num) (by norm_num) (by norm_num)
      (U hb ha) (U hc ha) (by norm_num) (by norm_num) (by norm_num) (by norm_num)
  unfold triangleArea Rounded.triangleArea
  generalize (a - b).cross (a - c) = v at V
  generalize Rounded.cross rnd (Rounded.sub rnd a b) (Rounded.sub rnd a c) = v' at V
  have hlen : v.length ≤ 14 * r ^ 2 := by
    have := length_near (a := v) (b := 0) (e := 8 * r ^ 2) (by simpa using V.1.bd) (by simpa using V.2.1.bd)
      (by simpa using V.2.2.bd)
    have z : (0 : Vec3).length = 0 := by simp [Vec3.length]
    rw [z, sub_zero] at this
    have := le_of_abs_le this
    nlinarith [sq_nonneg r]
  have h0 : 0 ≤ v.length := Real.sqrt_nonneg _
  have A : Ap u r 2 14 56 v.length v'.length := by
    refine ⟨by rw [abs_of_nonneg h0]; exact hlen, ?_⟩
    refine (length_near V.1.er V.2.1.er V.2.2.er).trans ?_
    have : 0 ≤ u * r ^ 2 := by positivity
    linarith
  have B : Ap u r 2 14 93 v.length (Rounded.length rnd v') := by
    refine ⟨A.bd, ?_⟩
    have h1 := R.length v'
    have h2 : v'.length ≤ (14 + 56 * u) * r ^ 2 := (le_abs_self _).trans A.abs_le
    have e : Rounded.length rnd v' - v.length = (Rounded.length rnd v' - v'.length) + (v'.length - v.length) := by ring
    rw [e]
    refine (abs_add_le _ _).trans ?_
    have h3 := A.er
    have h4 : 2.52 * u * v'.length ≤ 2.52 * u * (14.056 * r ^ 2) := by
      refine mul_le_mul_of_nonneg_left (h2.trans ?_) (by positivity)
      exact mul_le_mul_of_nonneg_right (by linarith) (by positivity)
    have : 0 ≤ u * r ^ 2 := by positivity
    linarith
  have C : Ap u r 0 0.5 0 0.5 0.5 := .refl (by norm_num)
  exact R.mul (n := 0) (m := 2) (by norm_num) (by norm_num) (by norm_num) (by norm_num) C B (by norm_num) (by norm_num)

/-- Error of the comparison of areas. -/
theorem Rnd.excess_err (R : Rnd u r rnd) {p a b c : Vec3} (hp : Within 1 r p) (ha : Within 1 r a) (hb : Within 1 r b)
    (hc : Within 1 r c) :
    |rnd (rnd (rnd (Rounded.triangleArea rnd b p c + Rounded.triangleArea rnd p a c) + Rounded.triangleArea rnd p a b) -
        Rounded.triangleArea rnd a b c) -
      (triangleArea b p c + triangleArea p a c + triangleArea p a b - triangleArea a b c)| ≤ 280 * u * r ^ 2 := by
  have h1 := R.add (d := 14) (j := 121.6) (by norm_num) (by norm_num) (R.area hb hp hc) (R.area hp ha hc) (by norm_num)
    (by norm_num)
  have h2 := R.add (d := 21) (j := 196.5) (by norm_num) (by norm_num) h1 (R.area hp ha hb) (by norm_num) (by norm_num)
  exact (R.sub (d := 28) (j := 280) (by norm_num) (by norm_num) h2 (R.area ha hb hc) (by norm_num) (by norm_num)).er

theorem Rnd.length2_nonneg (R : Rnd u r rnd) (a : Vec3) : 0 ≤ Rounded.length2 rnd a := by
  have h := (abs_le.1 (R.length2 a)).1
  have h0 : 0 ≤ a.length2 := by
    have := mul_self_nonneg a.x; have := mul_self_nonneg a.y; have := mul_self_nonneg a.z
    unfold Vec3.length2; linarith
  have h1 : 3.01 * u * a.length2 ≤ 1 * a.length2 := mul_le_mul_of_nonneg_right (by linarith [R.u1]) h0
  linarith

theorem rounded_sqMax (rnd : ℝ → ℝ) (ps : List Vec3) (a : ℝ) :
    a ≤ ps.foldl (fun acc p => max acc (Rounded.length2 rnd p)) a ∧
    (∀ p ∈ ps, Rounded.length2 rnd p ≤ ps.foldl (fun acc p => max acc (Rounded.length2 rnd p)) a) ∧
    (ps.foldl (fun acc p => max acc (Rounded.length2 rnd p)) a = a ∨
      ∃ p ∈ ps, Rounded.length2 rnd p = ps.foldl (fun acc p => max acc (Rounded.length2 rnd p)) a) := by
  induction ps generalizing a with
  | nil => simp
  | cons q ps ih =>
    obtain ⟨h1, h2, h3⟩ := ih (max a (Rounded.length2 rnd q))
    simp only [List.foldl_cons]
    refine ⟨(le_max_left _ _).trans h1, ?_, ?_⟩
    · intro p hp
      rcases List.mem_cons.1 hp with rfl | hp
      · exact (le_max_right _ _).trans h1
      · exact h2 p hp
    · rcases h3 with h3 | ⟨p, hp, h⟩
      · rcases max_choice a (Rounded.length2 rnd q) with h | h
        · left; rw [h3, h]
        · right; exact ⟨q, by simp, by rw [h3, h]⟩
      · right; exact ⟨p, by simp [hp], h⟩

/-- The rounded squared radius is off by a relative error. -/
theorem Rnd.sqMax (R : Rnd u r rnd) {ps : List Vec3} (hr : IsRadius ps r) :
    |Rounded.sqMaxRadius rnd ps - r ^ 2| ≤ 3.01 * u * r ^ 2 := by
  obtain ⟨h1, h2, h3⟩ := rounded_sqMax rnd ps 0
  rw [← Rounded.sqMaxRadius] at h1 h2 h3
  have hu := R.u0
  have hu1 := R.u1
  have hin : ∀ p ∈ ps, p.length2 ≤ r ^ 2 := by
    intro p hp
    have := hr.1 p hp
    rw [Mesh.dist_origin] at this
    exact (Real.sqrt_le_left R.r0).1 this
  have up : ∀ p ∈ ps, Rounded.length2 rnd p ≤ r ^ 2 + 3.01 * u * r ^ 2 := by
    intro p hp
    have := (abs_le.1 (R.length2 p)).2
    have h4 := hin p hp
    have : 3.01 * u * p.length2 ≤ 3.01 * u * r ^ 2 := mul_le_mul_of_nonneg_left h4 (by positivity)
    linarith
  rw [abs_le]
  constructor
  · rcases hr.2 with ⟨p, hp, h⟩ | ⟨-, h⟩
    · have h4 := h2 p hp
      have h5 := (abs_le.1 (R.length2 p)).1
      have h6 : p.length2 = r ^ 2 := by
        rw [Mesh.dist_origin] at h
        rw [← h, Real.sq_sqrt]
        have := mul_self_nonneg p.x; have := mul_self_nonneg p.y; have := mul_self_nonneg p.z
        unfold Vec3.length2; linarith
      rw [h6] at h5
      linarith
    · rw [h]; simp; exact h1
  · rcases h3 with h3 | ⟨p, hp, h⟩
    · rw [h3]; nlinarith [sq_nonneg r, mul_nonneg hu (sq_nonneg r)]
    · rw [← h]; linarith [up p hp]

/-- The rounded far point is close to the exact one. -/
theorem Rnd.far (R : Rnd u r rnd) {ps : List Vec3} (hr : IsRadius ps r) :
    |rnd (rnd 1.1 * Rounded.maxRadius rnd ps) - 1.1 * r| ≤ 5.5 * u * r := by
  have h := R.sqrt R.r0 (R.sqMax hr)
  have A : Ap u r 1 1 2.52 r (Rounded.maxRadius rnd ps) := ⟨by simp [abs_of_nonneg R.r0], by rw [pow_one]; exact h⟩
  have B : Ap u r 0 1.1 1.1 1.1 (rnd 1.1) := by
    refine ⟨by norm_num [abs_of_pos], ?_⟩
    have := R.err 1.1
    rw [abs_of_pos (show (0 : ℝ) < 1.1 by norm_num)] at this
    simpa [mul_comm] using this
  have := (R.mul (n := 0) (m := 1) (d := 1.1) (j := 5.5) (by norm_num) (by norm_num) (by norm_num) (by norm_num) B A
    (by norm_num) (by norm_num)).er
  simpa using this

/-- A product of two quantities whose signs are certain is compared correctly. -/
theorem Rnd.prod (R : Rnd u r rnd) {f g f' g' E : ℝ} (hE : 0 ≤ E) (hf : 2e-8 + E < |f|) (hg : 2e-8 + E < |g|)
    (hf' : |f' - f| ≤ E) (hg' : |g' - g| ≤ E) :
    (rnd (f' * g') ≥ -rnd 1e-16 ↔ f * g ≥ -1e-16) := by
  have hu := R.u0
  have hu1 := R.u1
  have ht := R.err 1e-16
  rw [abs_of_pos (show (0 : ℝ) < 1e-16 by norm_num), abs_le] at ht
  have hp := R.err (f' * g')
  rw [abs_le] at hf' hg'
  have pos : ∀ a b : ℝ, 2e-8 < a → 2e-8 < b → 4e-16 < a * b := by
    intro a b ha hb
    nlinarith
  have P : 4e-16 < f' * g' → rnd (f' * g') ≥ -rnd 1e-16 := by
    intro h
    rw [abs_of_pos (a := f' * g') (by linarith), abs_le] at hp
    have : u * (f' * g') ≤ 1 / 1000 * (f' * g') := mul_le_mul_of_nonneg_right hu1 (by linarith)
    linarith
  have N : 4e-16 < -(f' * g') → ¬ rnd (f' * g') ≥ -rnd 1e-16 := by
    intro h
    rw [abs_of_neg (a := f' * g') (by linarith), abs_le] at hp
    have : u * -(f' * g') ≤ 1 / 1000 * -(f' * g') := mul_le_mul_of_nonneg_right hu1 (by linarith)
    push Not
    linarith
  rcases lt_abs.1 hf with h1 | h1 <;> rcases lt_abs.1 hg with h2 | h2
  · have a := pos f' g' (by linarith) (by linarith)
    have b := pos f g (by linarith) (by linarith)
    exact ⟨fun _ => by linarith, fun _ => P a⟩
  · have a := pos f' (-g') (by linarith) (by linarith)
    have b := pos f (-g) (by linarith) (by linarith)
    exact ⟨fun h => absurd h (N (by linarith)), fun h => by linarith⟩
  · have a := pos (-f') g' (by linarith) (by linarith)
    have b := pos (-f) g (by linarith) (by linarith)
    exact ⟨fun h => absurd h (N (by linarith)), fun h => by linarith⟩
  · have a := pos (-f') (-g') (by linarith) (by linarith)
    have b := pos (-f) (-g) (by linarith) (by linarith)
    exact ⟨fun _ => by linarith, fun _ => P (by linarith)⟩

/-- Moving the far point along the axis by a rounding error. -/
theorem vol4_move {a b p : Vec3} {x x' e r : ℝ} (hr : 0 ≤ r) (ha : Within 1 r a) (hb : Within 1 r b) (hp : Within 1 r p)
    (hx : |x' - x| ≤ e) : |vol4 p ⟨x', 0, 0⟩ a b - vol4 p ⟨x, 0, 0⟩ a b| ≤ 8 * e * r ^ 2 := by
  have e1 : vol4 p ⟨x', 0, 0⟩ a b - vol4 p ⟨x, 0, 0⟩ a b =
      (x' - x) * ((a.y - p.y) * (b.z - p.z) - (a.z - p.z) * (b.y - p.y)) := by
    simp only [vol4_eq]; ring
  have d : ∀ {s t : ℝ}, |s| ≤ 1 * r → |t| ≤ 1 * r → |s - t| ≤ 2 * r := fun hs ht =>
    (abs_sub _ _).trans (by linarith)
  have he : 0 ≤ e := (abs_nonneg _).trans hx
  rw [e1, abs_mul]
  have h : |(a.y - p.y) * (b.z - p.z) - (a.z - p.z) * (b.y - p.y)| ≤ 8 * r ^ 2 := by
    refine (abs_sub _ _).trans ?_
    rw [abs_mul, abs_mul]
    have h1 := mul_le_mul (d ha.2.1 hp.2.1) (d hb.2.2 hp.2.2) (abs_nonneg _) (by positivity)
    have h2 := mul_le_mul (d ha.2.2 hp.2.2) (d hb.2.1 hp.2.1) (abs_nonneg _) (by positivity)
    nlinarith
  calc _ ≤ e * (8 * r ^ 2) := mul_le_mul hx h (abs_nonneg _) he
    _ = _ := by ring

/-- One iteration of the loop is not changed by the roundings. -/
theorem Rnd.step (R : Rnd u r rnd) {v1 v2 v3 p : Vec3} {x' : ℝ} (h1 : Within 1 r v1) (h2 : Within 1 r v2)
    (h3 : Within 1 r v3) (hp : Within 1 r p) (hx : |x' - 1.1 * r| ≤ 5.5 * u * r)
    (hc : WellClear u r p ⟨1.1 * r, 0, 0⟩ (v1, v2, v3)) (it : TriI) (st : Shape.HitState) :
    Rounded.containsStep rnd p ⟨x', 0, 0⟩ it v1 v2 v3 st = Shape.containsStep p ⟨1.1 * r, 0, 0⟩ it v1 v2 v3 st := by
  have hu := R.u0
  have hu1 := R.u1
  have hr := R.r0
  have hE : 0 ≤ 300 * u * r ^ 3 := by positivity
  have w : ∀ {a : Vec3}, Within 1 r a → Within 1.11 r a := fun h =>
    ⟨by linarith [h.1], by linarith [h.2.1], by linarith [h.2.2]⟩
  have ur : u * r ≤ 1 / 1000 * r := mul_le_mul_of_nonneg_right hu1 hr
  have wq : Within 1.11 r ⟨x', 0, 0⟩ := by
    refine ⟨?_, by simp; positivity, by simp; positivity⟩
    have h := abs_le.1 hx
    rw [abs_le]
    constructor <;> simp only <;> linarith
  have S : ∀ {a b : Vec3}, Within 1 r a → Within 1 r b →
      |Rounded.sideProduct rnd (Rounded.newLS rnd p ⟨x', 0, 0⟩) (Rounded.newLS rnd a b) - vol4 p ⟨1.1 * r, 0, 0⟩ a b| ≤
        300 * u * r ^ 3 := by
    intro a b ha hb
    have s1 := R.side_err (w hp) wq (w ha) (w hb)
    have s2 := vol4_move hr ha hb hp hx
    rw [abs_le] at *
    have : 0 ≤ u * r ^ 3 := by positivity
    constructor <;> nlinarith
  have S1 := S h1 h2
  have S2 := S h2 h3
  have S3 := S h3 h1
  have S4 : |Rounded.sideProduct rnd (Rounded.newLS rnd ⟨x', 0, 0⟩ v1) (Rounded.newLS rnd v2 v3) -
      -side (v1, v2, v3) ⟨1.1 * r, 0, 0⟩| ≤ 300 * u * r ^ 3 := by
    rw [← (vol4_side _ v1 v2 v3).1]
    have s1 := R.side_err wq (w h1) (w h2) (w h3)
    have s2 := vol4_move hr h2 h3 h1 hx
    have e : ∀ q : Vec3, vol4 q v1 v2 v3 = -vol4 v1 q v2 v3 := fun q => by simp only [vol4_eq]; ring
    rw [e] at s1 ⊢
    rw [abs_le] at *
    have : 0 ≤ u * r ^ 3 := by positivity
    constructor <;> nlinarith
  have S5 : |Rounded.sideProduct rnd (Rounded.newLS rnd v1 p) (Rounded.newLS rnd v2 v3) - side (v1, v2, v3) p| ≤
      300 * u * r ^ 3 := by
    rw [← (vol4_side _ v1 v2 v3).2]
    refine (R.side_err (w h1) (w hp) (w h2) (w h3)).trans ?_
    have : 0 ≤ u * r ^ 3 := by positivity
    linarith
  have S6 := R.excess_err hp h1 h2 h3
  have hfar := hc.face
  simp only [excess, heron_eq] at hfar
  have hends := hc.ends
  have hedge := hc.edges
  simp only [rim, List.mem_cons, List.not_mem_nil, or_false, forall_eq_or_imp, forall_eq, Pierced] at hedge hends hfar
  obtain ⟨g1, g2, g3⟩ := hedge
  have ht := R.err 1e-16
  rw [abs_of_pos (show (0 : ℝ) < 1e-16 by norm_num), abs_le] at ht
  have ht' := R.err 1e-12
  rw [abs_of_pos (show (0 : ℝ) < 1e-12 by norm_num), abs_le] at ht'
  unfold Rounded.containsStep Shape.containsStep
  simp only [sideProduct_vol, (vol4_side _ v1 v2 v3).1, (vol4_side _ v1 v2 v3).2]
  generalize Rounded.compute2DIntersection rnd _ _ = X1
  generalize compute2DIntersection _ _ = X2
  have T : (2e-8 + 300 * u * r ^ 3 < |side (v1, v2, v3) p| ∧ 2e-8 + 300 * u * r ^ 3 < |side (v1, v2, v3) ⟨1.1 * r, 0, 0⟩|) →
      _ := fun h => R.prod (f := -side (v1, v2, v3) ⟨1.1 * r, 0, 0⟩) (g := side (v1, v2, v3) p) hE
        (by rw [abs_neg]; exact h.2) h.1 S4 S5
  clear S4 S5
  generalize Rounded.sideProduct rnd (Rounded.newLS rnd ⟨x', 0, 0⟩ v1) (Rounded.newLS rnd v2 v3) = s4 at *
  generalize Rounded.sideProduct rnd (Rounded.newLS rnd v1 p) (Rounded.newLS rnd v2 v3) = s5 at *
  generalize Rounded.sideProduct rnd (Rounded.newLS rnd p ⟨x', 0, 0⟩) (Rounded.newLS rnd v1 v2) = s1 at *
  generalize Rounded.sideProduct rnd (Rounded.newLS rnd p ⟨x', 0, 0⟩) (Rounded.newLS rnd v2 v3) = s2 at *
  generalize Rounded.sideProduct rnd (Rounded.newLS rnd p ⟨x', 0, 0⟩) (Rounded.newLS rnd v3 v1) = s3 at *
  generalize vol4 p ⟨1.1 * r, 0, 0⟩ v1 v2 = t1 at *
  generalize vol4 p ⟨1.1 * r, 0, 0⟩ v2 v3 = t2 at *
  generalize vol4 p ⟨1.1 * r, 0, 0⟩ v3 v1 = t3 at *
  generalize side (v1, v2, v3) p = f at *
  generalize side (v1, v2, v3) ⟨1.1 * r, 0, 0⟩ = g at *
  generalize rnd (rnd (rnd (_ + _) + _) - Rounded.triangleArea rnd v1 v2 v3) = A' at *
  generalize triangleArea v2 p v3 + triangleArea p v1 v3 + triangleArea p v1 v2 - triangleArea v1 v2 v3 = A at *
  have F : u * 1e-12 + 300 * u * r ^ 2 < |(|A| - 1e-12)| → (|A'| < rnd 1e-12 ↔ |A| < 1e-12) := by
    intro h
    have h2 : |(|A'| - |A|)| ≤ 280 * u * r ^ 2 := (abs_abs_sub_abs_le _ _).trans S6
    have : 0 ≤ u * r ^ 2 := by positivity
    rw [abs_le] at h2
    rcases lt_abs.1 h with h | h
    · constructor <;> intro h' <;> exfalso <;> linarith
    · constructor <;> intro h' <;> linarith
  have sgn : ∀ s t : ℝ, |s - t| ≤ 300 * u * r ^ 3 → (1 + u) * 1e-16 + 300 * u * r ^ 3 < |t| →
      (0 < t ∧ (s ≥ -rnd 1e-16 ∧ s > rnd 1e-16 ∧ ¬ s ≤ rnd 1e-16 ∧ ¬ s < -rnd 1e-16) ∧
        t ≥ -1e-16 ∧ t > 1e-16 ∧ ¬ t ≤ 1e-16 ∧ ¬ t < -1e-16) ∨
      (t < 0 ∧ (¬ s ≥ -rnd 1e-16 ∧ ¬ s > rnd 1e-16 ∧ s ≤ rnd 1e-16 ∧ s < -rnd 1e-16) ∧
        ¬ t ≥ -1e-16 ∧ ¬ t > 1e-16 ∧ t ≤ 1e-16 ∧ t < -1e-16) := by
    intro s t hs h
    rw [abs_le] at hs
    rcases lt_abs.1 h with hh | hh
    · left
      refine ⟨by linarith, ⟨by linarith, by linarith, by linarith, by linarith⟩, by linarith, by linarith, by linarith,
        by linarith⟩
    · right
      refine ⟨by linarith, ⟨by linarith, by linarith, by linarith, by linarith⟩, by linarith, by linarith, by linarith,
        by linarith⟩
  rcases sgn s1 t1 S1 g1 with ⟨p1, q1, o1⟩ | ⟨p1, q1, o1⟩ <;> rcases sgn s2 t2 S2 g2 with ⟨p2, q2, o2⟩ | ⟨p2, q2, o2⟩ <;>
  rcases sgn s3 t3 S3 g3 with ⟨p3, q3, o3⟩ | ⟨p3, q3, o3⟩
  · have t := T (hends (.inl ⟨p1, p2, p3⟩))
    have k := F (hfar (.inl ⟨p1, p2, p3⟩))
    simp [q1, q2, q3, o1, o2, o3, Shape.count3, t, k]
  case inr.inr.inr =>
    have t := T (hends (.inr ⟨p1, p2, p3⟩))
    have k := F (hfar (.inr ⟨p1, p2, p3⟩))
    simp [q1, q2, q3, o1, o2, o3, Shape.count3, t, k]
  all_goals simp [q1, q2, q3, o1, o2, o3]

theorem within_of_length2 {a : Vec3} (hr : 0 ≤ r) (h : a.length2 ≤ r ^ 2) : Within 1 r a := by
  have hx := mul_self_nonneg a.x
  have hy := mul_self_nonneg a.y
  have hz := mul_self_nonneg a.z
  unfold Vec3.length2 at h
  refine ⟨?_, ?_, ?_⟩ <;> rw [one_mul] <;> refine abs_le_of_sq_le_sq ?_ hr <;> nlinarith

/-- The loop over the triangles is not changed by the roundings. -/
theorem Rnd.loop (R : Rnd u r rnd) {p : Vec3} {x' : ℝ} {ps : List Vec3} {is : List TriI} {ts : List (Vec3 × Vec3 × Vec3)}
    (hs : soup ps is = some ts) (hps : ∀ a ∈ ps, Within 1 r a) (hp : Within 1 r p) (hx : |x' - 1.1 * r| ≤ 5.5 * u * r)
    (hc : ∀ t ∈ ts, WellClear u r p ⟨1.1 * r, 0, 0⟩ t) (st : Shape.HitState) :
    Rounded.containsLoop rnd p ⟨x', 0, 0⟩ ps is st = Shape.containsLoop p ⟨1.1 * r, 0, 0⟩ ps is st := by
  rw [Mesh.soup_some] at hs
  induction hs generalizing st with
  | nil => rfl
  | @cons i c is ts hi _ ih =>
    unfold Rounded.containsLoop Shape.containsLoop
    rw [vget_ok.2 hi.1, vget_ok.2 hi.2.1, vget_ok.2 hi.2.2]
    simp only [bind, Except.bind]
    rw [R.step (hps _ (List.mem_of_getElem? hi.1)) (hps _ (List.mem_of_getElem? hi.2.1))
      (hps _ (List.mem_of_getElem? hi.2.2)) hp hx (hc c (by simp))]
    cases Shape.containsStep p ⟨1.1 * r, 0, 0⟩ i c.1 c.2.1 c.2.2 st with
    | inside => rfl
    | go st' => exact ih (fun t ht => hc t (by simp [ht])) st'

/-- The containment test is not changed by the roundings. -/
theorem Rnd.contains (R : Rnd u r rnd) {s : Shape} (hm : s.mesh.Coherent) {ts : List (Vec3 × Vec3 × Vec3)}
    (hs : soup s.mesh.points s.mesh.tris = some ts) (hr : IsRadius s.mesh.points r) {p : Vec3}
    (hd : Spec.dist p ⟨0, 0, 0⟩ ≤ (1 - 4 * u) * r ∨ (1 + 4 * u) * r < Spec.dist p ⟨0, 0, 0⟩)
    (hc : Spec.dist p ⟨0, 0, 0⟩ ≤ r → ∀ t ∈ ts, WellClear u r p ⟨1.1 * r, 0, 0⟩ t) :
    Rounded.contains rnd s p = s.contains p := by
  obtain ⟨hR, hR2, h0⟩ := radius_eq hm hr
  have hu := R.u0
  have hu1 := R.u1
  have hmax := abs_le.1 (R.sqMax hr)
  have hl := abs_le.1 (R.length2 p)
  have hl0 : 0 ≤ p.length2 := by
    have := mul_self_nonneg p.x; have := mul_self_nonneg p.y; have := mul_self_nonneg p.z
    unfold Vec3.length2; linarith
  have hur : 0 ≤ u * r := by positivity
  have hu2 : u * u ≤ 1 / 1000 * u := mul_le_mul_of_nonneg_right hu1 hu
  have hr2 : 0 ≤ r ^ 2 := by positivity
  unfold Rounded.contains Shape.contains Shape.containsMesh
  rw [hR, hR2]
  rcases hd with hd | hd
  · have hd' : Spec.dist p ⟨0, 0, 0⟩ ≤ r := by linarith
    rw [Mesh.dist_origin] at hd
    have h1 : p.length2 ≤ ((1 - 4 * u) * r) ^ 2 :=
      (Real.sqrt_le_left (mul_nonneg (by linarith) h0)).1 hd
    have h2 : p.length2 ≤ r ^ 2 * (1 - 7.9 * u) := by
      refine h1.trans ?_
      rw [show ((1 - 4 * u) * r) ^ 2 = r ^ 2 * (1 - 8 * u + 16 * (u * u)) by ring]
      exact mul_le_mul_of_nonneg_left (by linarith) hr2
    have h3 : p.length2 ≤ r ^ 2 := h2.trans (by nlinarith)
    have h4 : u * p.length2 ≤ u * r ^ 2 := mul_le_mul_of_nonneg_left h3 hu
    have h5 : ¬ Rounded.length2 rnd p > Rounded.sqMaxRadius rnd s.mesh.points := by
      push Not
      linarith
    rw [if_neg h5, if_neg (not_lt.2 h3)]
    refine R.loop hs (fun a ha => within_of_length2 h0 ?_) (within_of_length2 h0 h3) (R.far hr) (hc hd') _
    have := hr.1 a ha
    rw [Mesh.dist_origin] at this
    exact (Real.sqrt_le_left h0).1 this
  · rw [Mesh.dist_origin] at hd
    have h1 : ((1 + 4 * u) * r) ^ 2 < p.length2 := (Real.lt_sqrt (by positivity)).1 hd
    rw [show ((1 + 4 * u) * r) ^ 2 = r ^ 2 + 8 * (u * r ^ 2) + 16 * (u * u * r ^ 2) by ring] at h1
    have h6 : 0 ≤ u * r ^ 2 := by positivity
    have h7 : 0 ≤ u * u * r ^ 2 := by positivity
    have h2 : (1 - 3.01 * u) * (r ^ 2 + 8 * (u * r ^ 2)) < (1 - 3.01 * u) * p.length2 :=
      mul_lt_mul_of_pos_left (by linarith) (by linarith)
    have h8 : u * (u * r ^ 2) ≤ 1 / 1000 * (u * r ^ 2) := mul_le_mul_of_nonneg_right hu1 h6
    rw [if_pos, if_pos]
    · linarith
    · linarith

end

/-! ## A concrete mesh -/

/-- Rational bounds that make a probe well clear of a triangle, for `double` and coordinates of size 3. -/
theorem wellClear_case {p q v1 v2 v3 : Vec3} (a b c d : ℝ)
    (h12 : 1 / 100 < vol4 p q v1 v2 ^ 2) (h23 : 1 / 100 < vol4 p q v2 v3 ^ 2) (h31 : 1 / 100 < vol4 p q v3 v1 ^ 2)
    (hp : 1 / 100 < side (v1, v2, v3) p ^ 2) (hq : 1 / 100 < side (v1, v2, v3) q ^ 2)
    (hf : (0 ≤ a ∧ 0 ≤ b ∧ 0 ≤ c ∧ 0 ≤ d ∧ d + 1 / 50 ≤ a + b + c) ∧
      a ^ 2 ≤ area4 v2 p v3 ∧ b ^ 2 ≤ area4 p v1 v3 ∧ c ^ 2 ≤ area4 p v1 v2 ∧ area4 v1 v2 v3 ≤ d ^ 2) :
    WellClear (1 / 2 ^ 53) 3 p q (v1, v2, v3) := by
  have pos : ∀ x : ℝ, 1 / 100 < x ^ 2 → 1 / 10 < |x| := by
    intro x hx
    rw [← sq_abs] at hx
    by_contra hn
    rw [not_lt] at hn
    have := mul_self_le_mul_self (abs_nonneg x) hn
    nlinarith
  refine ⟨?_, fun _ => ⟨?_, ?_⟩, fun _ => ?_⟩
  · intro e he
    simp only [rim, List.mem_cons, List.not_mem_nil, or_false] at he
    rcases he with rfl | rfl | rfl
    · have := pos _ h12; norm_num at *; linarith
    · have := pos _ h23; norm_num at *; linarith
    · have := pos _ h31; norm_num at *; linarith
  · have := pos _ hp; norm_num at *; linarith
  · have := pos _ hq; norm_num at *; linarith
  · obtain ⟨⟨ha, hb, hc, hd, hsum⟩, h1, h2, h3, h4⟩ := hf
    simp only [excess, heron_area4]
    have k1 := Real.le_sqrt_of_sq_le h1
    have k2 := Real.le_sqrt_of_sq_le h2
    have k3 := Real.le_sqrt_of_sq_le h3
    have k4 := Real.sqrt_le_left hd |>.2 h4
    refine lt_of_lt_of_le ?_ (le_abs_self _)
    refine lt_of_lt_of_le ?_ (sub_le_sub_right (le_abs_self _) _)
    norm_num at *
    linarith

theorem tetra_well_in : ∀ t ∈ tetraTs, WellClear (1 / 2 ^ 53) 3 ⟨0, 0, 0⟩ ⟨1.1 * 3, 0, 0⟩ t := by
  intro t ht
  simp only [tetraTs, List.mem_cons, List.not_mem_nil, or_false] at ht
  rcases ht with rfl | rfl | rfl | rfl
  · exact wellClear_case 9 9 9 (1559/100) (by simp only [vol4_eq]; norm_num) (by simp only [vol4_eq]; norm_num)
      (by simp only [vol4_eq]; norm_num) (by simp only [side]; norm_num) (by simp only [side]; norm_num)
      (by norm_num [area4])
  · exact wellClear_case (403/50) 9 (103/25) (421/20) (by simp only [vol4_eq]; norm_num) (by simp only [vol4_eq]; norm_num)
      (by simp only [vol4_eq]; norm_num) (by simp only [side]; norm_num) (by simp only [side]; norm_num)
      (by norm_num [area4])
  · exact wellClear_case (447/50) (103/25) 9 (1887/100) (by simp only [vol4_eq]; norm_num) (by simp only [vol4_eq]; norm_num)
      (by simp only [vol4_eq]; norm_num) (by simp only [side]; norm_num) (by simp only [side]; norm_num)
      (by norm_num [area4])
  · exact wellClear_case (447/50) 9 (403/50) (1801/100) (by simp only [vol4_eq]; norm_num) (by simp only [vol4_eq]; norm_num)
      (by simp only [vol4_eq]; norm_num) (by simp only [side]; norm_num) (by simp only [side]; norm_num)
      (by norm_num [area4])

theorem tetra_well_out : ∀ t ∈ tetraTs, WellClear (1 / 2 ^ 53) 3 ⟨-1, -1, 1⟩ ⟨1.1 * 3, 0, 0⟩ t := by
  intro t ht
  simp only [tetraTs, List.mem_cons, List.not_mem_nil, or_false] at ht
  rcases ht with rfl | rfl | rfl | rfl
  · exact wellClear_case (519/100) (497/50) (497/50) (1559/100) (by simp only [vol4_eq]; norm_num) (by simp only [vol4_eq]; norm_num)
      (by simp only [vol4_eq]; norm_num) (by simp only [side]; norm_num) (by simp only [side]; norm_num)
      (by norm_num [area4])
  · exact wellClear_case (591/100) (497/50) (1307/100) (421/20) (by simp only [vol4_eq]; norm_num) (by simp only [vol4_eq]; norm_num)
      (by simp only [vol4_eq]; norm_num) (by simp only [side]; norm_num) (by simp only [side]; norm_num)
      (by norm_num [area4])
  · exact wellClear_case (187/25) (1307/100) (497/50) (1887/100) (by simp only [vol4_eq]; norm_num) (by simp only [vol4_eq]; norm_num)
      (by simp only [vol4_eq]; norm_num) (by simp only [side]; norm_num) (by simp only [side]; norm_num)
      (by norm_num [area4])
  · exact wellClear_case (187/25) (519/100) (591/100) (1801/100) (by simp only [vol4_eq]; norm_num) (by simp only [vol4_eq]; norm_num)
      (by simp only [vol4_eq]; norm_num) (by simp only [side]; norm_num) (by simp only [side]; norm_num)
      (by norm_num [area4])

end Geo
