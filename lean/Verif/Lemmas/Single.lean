import Verif.Model.Single
import Verif.Lemmas.OctreeTree

/-!
# Helper lemmas on rounding to `float`
-/

namespace Geo

open Spec

/-! ## Rounding -/

theorem nearestEven_near (q : ℝ) : |(nearestEven q : ℝ) - q| ≤ 1 / 2 := by
  have h1 := Int.floor_le q
  have h2 := Int.lt_floor_add_one q
  unfold nearestEven
  simp only
  rw [abs_le]
  split_ifs <;> push_cast <;> constructor <;> linarith

theorem nearestEven_eq {q : ℝ} {m : ℤ} (h : |q - m| < 1 / 2) : nearestEven q = m := by
  have h1 := nearestEven_near q
  have : |((nearestEven q - m : ℤ) : ℝ)| < 1 := by
    push_cast
    have e : (nearestEven q : ℝ) - m = (nearestEven q - q) + (q - m) := by ring
    rw [e]
    exact lt_of_le_of_lt (abs_add_le _ _) (by linarith)
  rw [← Int.cast_abs] at this
  have h2 : |nearestEven q - m| < 1 := by exact_mod_cast this
  have := Int.abs_lt_one_iff.1 h2
  omega

theorem toFloat_zero : toFloat 0 = 0 := by simp [toFloat]

/-- The relative error of the cast. -/
theorem toFloat_near (x : ℝ) : |toFloat x - x| ≤ |x| / 2 ^ 24 := by
  unfold toFloat
  split_ifs with h
  · simp [h]
  simp only
  set e := Int.log 2 |x| - 23 with he
  have hx : 0 < |x| := abs_pos.2 h
  have hp : (0 : ℝ) < 2 ^ e := zpow_pos (by norm_num) _
  have hl : (2 : ℝ) ^ (e + 23) ≤ |x| := by
    have := Int.zpow_log_le_self (b := 2) (by norm_num) hx
    rw [he, sub_add_cancel]
    exact_mod_cast this
  have e1 : (nearestEven (x / 2 ^ e) : ℝ) * 2 ^ e - x = (nearestEven (x / 2 ^ e) - x / 2 ^ e) * 2 ^ e := by
    field_simp
  rw [e1, abs_mul, abs_of_pos hp]
  have h1 := mul_le_mul_of_nonneg_right (nearestEven_near (x / 2 ^ e)) hp.le
  rw [zpow_add₀ (by norm_num)] at hl
  rw [le_div_iff₀ (by positivity)]
  have e3 : (2 : ℝ) ^ (23 : ℤ) = 2 ^ 23 := by norm_cast
  rw [e3] at hl
  nlinarith

/-- The cast in a given binade. -/
theorem toFloat_eq {x : ℝ} (n : ℕ) {m : ℤ} (h1 : 2 ^ (n + 23) ≤ x) (h2 : x < 2 ^ (n + 24))
    (h3 : |x - m * 2 ^ n| < 2 ^ n / 2) : toFloat x = m * 2 ^ n := by
  have hp : (0 : ℝ) < 2 ^ (n + 23) := by positivity
  have hx : 0 < x := lt_of_lt_of_le hp h1
  unfold toFloat
  rw [if_neg hx.ne']
  have hl : Int.log 2 |x| = (n + 23 : ℤ) := by
    rw [abs_of_pos hx]
    have l1 : ((n + 23 : ℕ) : ℤ) ≤ Int.log 2 x := by
      rw [← Int.zpow_le_iff_le_log (by norm_num) hx]
      rw [zpow_natCast]; exact_mod_cast h1
    have l2 : Int.log 2 x < ((n + 24 : ℕ) : ℤ) := by
      rw [← Int.lt_zpow_iff_log_lt (by norm_num) hx]
      rw [zpow_natCast]; exact_mod_cast h2
    push_cast at l1 l2
    omega
  simp only [hl, add_sub_cancel_right, zpow_natCast]
  have hn : (0 : ℝ) < 2 ^ n := by positivity
  rw [nearestEven_eq (m := m)]
  have e : x / 2 ^ n - m = (x - m * 2 ^ n) / 2 ^ n := by field_simp
  rw [e, abs_div, abs_of_pos hn, div_lt_iff₀ hn]
  linarith

theorem nearestEven_int (m : ℤ) : nearestEven m = m := nearestEven_eq (by simp)

theorem nearestEven_mono {p q : ℝ} (h : p ≤ q) : nearestEven p ≤ nearestEven q := by
  by_contra hlt
  push Not at hlt
  have h1 : ((nearestEven q + 1 : ℤ) : ℝ) ≤ nearestEven p := by exact_mod_cast hlt
  push_cast at h1
  have hp := abs_le.1 (nearestEven_near p)
  have hq := abs_le.1 (nearestEven_near q)
  have : p = q := by linarith
  rw [this] at hlt
  exact lt_irrefl _ hlt

/-- A positive number keeps its binade. -/
theorem toFloat_pos {x : ℝ} (hx : 0 < x) :
    (2 : ℝ) ^ Int.log 2 x ≤ toFloat x ∧ toFloat x ≤ 2 ^ (Int.log 2 x + 1) := by
  unfold toFloat
  rw [if_neg hx.ne', abs_of_pos hx]
  simp only
  set l := Int.log 2 x with hl
  have h1 : (2 : ℝ) ^ l ≤ x := by exact_mod_cast Int.zpow_log_le_self (b := 2) (by norm_num) hx
  have h2 : x < 2 ^ (l + 1) := by exact_mod_cast Int.lt_zpow_succ_log_self (b := 2) (by norm_num) x
  have hp : (0 : ℝ) < 2 ^ (l - 23) := zpow_pos (by norm_num) _
  have e1 : (2 : ℝ) ^ l = ((2 ^ 23 : ℤ) : ℝ) * 2 ^ (l - 23) := by
    rw [show ((2 ^ 23 : ℤ) : ℝ) = (2 : ℝ) ^ (23 : ℤ) by norm_num, ← zpow_add₀ (by norm_num)]
    congr 1
    ring
  have e2 : (2 : ℝ) ^ (l + 1) = ((2 ^ 24 : ℤ) : ℝ) * 2 ^ (l - 23) := by
    rw [show ((2 ^ 24 : ℤ) : ℝ) = (2 : ℝ) ^ (24 : ℤ) by norm_num, ← zpow_add₀ (by norm_num)]
    congr 1
    ring
  rw [e1] at h1 ⊢
  rw [e2] at h2 ⊢
  constructor
  · refine mul_le_mul_of_nonneg_right ?_ hp.le
    have := nearestEven_mono (p := ((2 ^ 23 : ℤ) : ℝ)) (q := x / 2 ^ (l - 23)) (by rw [le_div_iff₀ hp]; exact h1)
    rw [nearestEven_int] at this
    exact_mod_cast this
  · refine mul_le_mul_of_nonneg_right ?_ hp.le
    have := nearestEven_mono (p := x / 2 ^ (l - 23)) (q := ((2 ^ 24 : ℤ) : ℝ)) (by rw [div_le_iff₀ hp]; exact h2.le)
    rw [nearestEven_int] at this
    exact_mod_cast this

/-- A negative number keeps its binade. -/
theorem toFloat_neg {x : ℝ} (hx : x < 0) :
    -(2 : ℝ) ^ (Int.log 2 (-x) + 1) ≤ toFloat x ∧ toFloat x ≤ -2 ^ Int.log 2 (-x) := by
  unfold toFloat
  rw [if_neg hx.ne, abs_of_neg hx]
  simp only
  set l := Int.log 2 (-x) with hl
  have h1 : (2 : ℝ) ^ l ≤ -x := by exact_mod_cast Int.zpow_log_le_self (b := 2) (by norm_num) (neg_pos.2 hx)
  have h2 : -x < 2 ^ (l + 1) := by exact_mod_cast Int.lt_zpow_succ_log_self (b := 2) (by norm_num) (-x)
  have hp : (0 : ℝ) < 2 ^ (l - 23) := zpow_pos (by norm_num) _
  have e1 : (2 : ℝ) ^ l = ((2 ^ 23 : ℤ) : ℝ) * 2 ^ (l - 23) := by
    rw [show ((2 ^ 23 : ℤ) : ℝ) = (2 : ℝ) ^ (23 : ℤ) by norm_num, ← zpow_add₀ (by norm_num)]
    congr 1
    ring
  have e2 : (2 : ℝ) ^ (l + 1) = ((2 ^ 24 : ℤ) : ℝ) * 2 ^ (l - 23) := by
    rw [show ((2 ^ 24 : ℤ) : ℝ) = (2 : ℝ) ^ (24 : ℤ) by norm_num, ← zpow_add₀ (by norm_num)]
    congr 1
    ring
  rw [e1] at h1 ⊢
  rw [e2] at h2 ⊢
  constructor
  · have := nearestEven_mono (p := ((-2 ^ 24 : ℤ) : ℝ)) (q := x / 2 ^ (l - 23))
      (by rw [le_div_iff₀ hp]; push_cast at h2 ⊢; linarith)
    rw [nearestEven_int] at this
    have h3 : ((-2 ^ 24 : ℤ) : ℝ) ≤ nearestEven (x / 2 ^ (l - 23)) := by exact_mod_cast this
    have := mul_le_mul_of_nonneg_right h3 hp.le
    push_cast at this ⊢
    linarith
  · have := nearestEven_mono (p := x / 2 ^ (l - 23)) (q := ((-2 ^ 23 : ℤ) : ℝ))
      (by rw [div_le_iff₀ hp]; push_cast at h1 ⊢; linarith)
    rw [nearestEven_int] at this
    have h3 : (nearestEven (x / 2 ^ (l - 23)) : ℝ) ≤ ((-2 ^ 23 : ℤ) : ℝ) := by exact_mod_cast this
    have := mul_le_mul_of_nonneg_right h3 hp.le
    push_cast at this ⊢
    linarith

/-- The cast is monotone. -/
theorem toFloat_mono : Monotone toFloat := by
  intro x y h
  have two : (1 : ℝ) < 2 := by norm_num
  rcases lt_trichotomy x 0 with hx | rfl | hx
  · have nx : toFloat x ≤ 0 := (toFloat_neg hx).2.trans (neg_nonpos.2 (zpow_pos (by norm_num) _).le)
    rcases lt_trichotomy y 0 with hy | rfl | hy
    · have hl : Int.log 2 (-y) ≤ Int.log 2 (-x) := Int.log_mono_right (by linarith) (by linarith)
      rcases hl.lt_or_eq with hl | hl
      · refine (toFloat_neg hx).2.trans (le_trans ?_ (toFloat_neg hy).1)
        exact neg_le_neg (zpow_le_zpow_right₀ two.le (by omega))
      · unfold toFloat
        rw [if_neg hx.ne, if_neg hy.ne, abs_of_neg hx, abs_of_neg hy, hl]
        have hp : (0 : ℝ) < 2 ^ (Int.log 2 (-x) - 23) := zpow_pos (by norm_num) _
        refine mul_le_mul_of_nonneg_right ?_ hp.le
        exact_mod_cast nearestEven_mono ((div_le_div_iff_of_pos_right hp).2 h)
    · rw [toFloat_zero]; exact nx
    · exact nx.trans ((zpow_pos (by norm_num) _).le.trans (toFloat_pos hy).1)
  · rw [toFloat_zero]
    rcases h.lt_or_eq with hy | rfl
    · exact (zpow_pos (by norm_num) _).le.trans (toFloat_pos hy).1
    · rw [toFloat_zero]
  · have hy : 0 < y := lt_of_lt_of_le hx h
    have hl : Int.log 2 x ≤ Int.log 2 y := Int.log_mono_right hx h
    rcases hl.lt_or_eq with hl | hl
    · refine (toFloat_pos hx).2.trans (le_trans ?_ (toFloat_pos hy).1)
      exact zpow_le_zpow_right₀ two.le (by omega)
    · unfold toFloat
      rw [if_neg hx.ne', if_neg hy.ne', abs_of_pos hx, abs_of_pos hy, hl]
      have hp : (0 : ℝ) < 2 ^ (Int.log 2 y - 23) := zpow_pos (by norm_num) _
      refine mul_le_mul_of_nonneg_right ?_ hp.le
      exact_mod_cast nearestEven_mono ((div_le_div_iff_of_pos_right hp).2 h)

/-! ## Leaving an octant -/

/-- (Device of the proofs.) What is used about the cast: its relative error. -/
def Rounding (rnd : ℝ → ℝ) : Prop := ∀ x, |rnd x - x| ≤ |x| / 2 ^ 24

theorem Rounding.nonneg {rnd : ℝ → ℝ} (h : Rounding rnd) {x : ℝ} (hx : 0 ≤ x) :
    x - x / 2 ^ 24 ≤ rnd x ∧ rnd x ≤ x + x / 2 ^ 24 ∧ 0 ≤ rnd x := by
  have := h x
  rw [abs_of_nonneg hx, abs_le] at this
  refine ⟨by linarith, by linarith, ?_⟩
  have : x / 2 ^ 24 ≤ x := div_le_self hx (by norm_num)
  linarith

theorem Rounding.nonpos {rnd : ℝ → ℝ} (h : Rounding rnd) {x : ℝ} (hx : x ≤ 0) :
    x + x / 2 ^ 24 ≤ rnd x ∧ rnd x ≤ x - x / 2 ^ 24 ∧ rnd x ≤ 0 := by
  have := h x
  rw [abs_of_nonpos hx, neg_div, abs_le] at this
  refine ⟨by linarith, by linarith, ?_⟩
  have : -x / 2 ^ 24 ≤ -x := div_le_self (by linarith) (by norm_num)
  rw [neg_div] at this
  linarith

theorem intersectRayF_eq (rnd : ℝ → ℝ) (b : Box) (o d : Vec3) (t0 t1 d0 : ℝ) :
    b.intersectRayF rnd (Ray.new o d) t0 t1 d0 =
      (let a1 := rnd (slabLo b.lo.x b.hi.x o.x d.normalized.x)
       let a2 := rnd (slabHi b.lo.x b.hi.x o.x d.normalized.x)
       let b1 := rnd (slabLo b.lo.y b.hi.y o.y d.normalized.y)
       let b2 := rnd (slabHi b.lo.y b.hi.y o.y d.normalized.y)
       let c1 := rnd (slabLo b.lo.z b.hi.z o.z d.normalized.z)
       let c2 := rnd (slabHi b.lo.z b.hi.z o.z d.normalized.z)
       if a1 > b2 ∨ b1 > a2 then (false, d0) else
        if max b1 a1 > c2 ∨ c1 > min b2 a2 then (false, d0) else
          (@decide (t0 < min c2 (min b2 a2) ∧ max c1 (max b1 a1) < t1) (Classical.propDecidable _),
            max c1 (max b1 a1))) := by
  have e : ∀ (p : Prop) [Decidable p], (Box.bound b (decide p)) = if p then b.hi else b.lo := by
    intro p _; unfold Box.bound; by_cases hp : p <;> simp [hp]
  have e' : ∀ (p : Prop) [Decidable p], (Box.bound b (!decide p)) = if p then b.lo else b.hi := by
    intro p _; unfold Box.bound; by_cases hp : p <;> simp [hp]
  have fx : ∀ (p : Prop) [Decidable p] (u v : Vec3), (if p then u else v).x = if p then u.x else v.x :=
    fun p _ u v => by split_ifs <;> rfl
  have fy : ∀ (p : Prop) [Decidable p] (u v : Vec3), (if p then u else v).y = if p then u.y else v.y :=
    fun p _ u v => by split_ifs <;> rfl
  have fz : ∀ (p : Prop) [Decidable p] (u v : Vec3), (if p then u else v).z = if p then u.z else v.z :=
    fun p _ u v => by split_ifs <;> rfl
  unfold Box.intersectRayF Ray.new slabLo slabHi
  simp only [e, e', fx, fy, fz]
  congr

theorem rayF_spec (rnd : ℝ → ℝ) (lo hi o d u : Vec3) (t0 t1 d0 : ℝ) (hu : UnitAlong d u) :
    let r := (Box.new lo hi).intersectRayF rnd (Ray.new o d) t0 t1 d0
    ∀ a1 a2 b1 b2 c1 c2, a1 = rnd (slabLo lo.x hi.x o.x u.x) → a2 = rnd (slabHi lo.x hi.x o.x u.x) →
      b1 = rnd (slabLo lo.y hi.y o.y u.y) → b2 = rnd (slabHi lo.y hi.y o.y u.y) →
      c1 = rnd (slabLo lo.z hi.z o.z u.z) → c2 = rnd (slabHi lo.z hi.z o.z u.z) →
      (r.1 = true ↔ (a1 ≤ b2 ∧ b1 ≤ a2 ∧ max b1 a1 ≤ c2 ∧ c1 ≤ min b2 a2) ∧ t0 < min c2 (min b2 a2) ∧
        max c1 (max b1 a1) < t1) ∧
      (a1 ≤ b2 ∧ b1 ≤ a2 ∧ max b1 a1 ≤ c2 ∧ c1 ≤ min b2 a2 → r.2 = max c1 (max b1 a1)) := by
  intro r a1 a2 b1 b2 c1 c2 h1 h2 h3 h4 h5 h6
  have hr : r = _ := intersectRayF_eq rnd (Box.new lo hi) o d t0 t1 d0
  rw [unitAlong_normalized hu] at hr
  rw [show (Box.new lo hi).lo = lo from rfl, show (Box.new lo hi).hi = hi from rfl] at hr
  simp only [← h1, ← h2, ← h3, ← h4, ← h5, ← h6] at hr
  rw [hr]
  by_cases q1 : a1 > b2 ∨ b1 > a2
  · rw [if_pos q1]
    have : ¬ (a1 ≤ b2 ∧ b1 ≤ a2 ∧ max b1 a1 ≤ c2 ∧ c1 ≤ min b2 a2) := by
      rintro ⟨x1, x2, -⟩
      rcases q1 with q | q
      · exact not_lt.2 x1 q
      · exact not_lt.2 x2 q
    tauto
  · rw [if_neg q1]
    by_cases q2 : max b1 a1 > c2 ∨ c1 > min b2 a2
    · rw [if_pos q2]
      have : ¬ (a1 ≤ b2 ∧ b1 ≤ a2 ∧ max b1 a1 ≤ c2 ∧ c1 ≤ min b2 a2) := by
        rintro ⟨-, -, x1, x2⟩
        rcases q2 with q | q
        · exact not_lt.2 x1 q
        · exact not_lt.2 x2 q
      tauto
    · rw [if_neg q2]
      push Not at q1 q2
      simp only [decide_eq_true_eq, implies_true, and_true]
      tauto

theorem intersectRayF_id (b : Box) (r : Ray) (t0 t1 d0 : ℝ) :
    b.intersectRayF id r t0 t1 d0 = b.intersectRay r t0 t1 d0 := rfl

namespace OctNode

/-- For an origin in the box the out-parameter is always written. -/
theorem insideF_written {rnd : ℝ → ℝ} (hr : Rounding rnd) (b : Box) (o d : Vec3) (t0 t1 d0 : ℝ) (h : InBox b.lo b.hi o) :
    (b.intersectRayF rnd (Ray.new o d) t0 t1 d0).2 =
      max (rnd (slabLo b.lo.z b.hi.z o.z d.normalized.z)) (max (rnd (slabLo b.lo.y b.hi.y o.y d.normalized.y))
        (rnd (slabLo b.lo.x b.hi.x o.x d.normalized.x))) := by
  obtain ⟨x1, x2, y1, y2, z1, z2⟩ := h
  obtain ⟨ax, ax', -⟩ := exit_axis (u := d.normalized.x) x1 x2
  obtain ⟨ay, ay', -⟩ := exit_axis (u := d.normalized.y) y1 y2
  obtain ⟨az, az', -⟩ := exit_axis (u := d.normalized.z) z1 z2
  replace ax := (hr.nonpos ax).2.2
  replace ay := (hr.nonpos ay).2.2
  replace az := (hr.nonpos az).2.2
  replace ax' := (hr.nonneg ax').2.2
  replace ay' := (hr.nonneg ay').2.2
  replace az' := (hr.nonneg az').2.2
  rw [intersectRayF_eq]
  simp only
  generalize rnd (slabLo b.lo.x b.hi.x o.x d.normalized.x) = a1 at *
  generalize rnd (slabHi b.lo.x b.hi.x o.x d.normalized.x) = a2 at *
  generalize rnd (slabLo b.lo.y b.hi.y o.y d.normalized.y) = b1 at *
  generalize rnd (slabHi b.lo.y b.hi.y o.y d.normalized.y) = b2 at *
  generalize rnd (slabLo b.lo.z b.hi.z o.z d.normalized.z) = c1 at *
  generalize rnd (slabHi b.lo.z b.hi.z o.z d.normalized.z) = c2 at *
  rw [if_neg (by push Not; constructor <;> linarith), if_neg]
  push Not
  exact ⟨(max_le ay ax).trans az', az.trans (le_min ay' ax')⟩

theorem exitF_le {rnd : ℝ → ℝ} (h : Rounding rnd) {s : ℝ} {b : Bool × Bool × Bool} {o u : Vec3} (hu : Unit3 u)
    (ho : InOct s b o) (range : ℝ) : exitDistF rnd s b.1 b.2.1 b.2.2 o u range ≤ 0 := by
  obtain ⟨⟨x1, x2⟩, ⟨y1, y2⟩, ⟨z1, z2⟩⟩ := ho
  have ax := (exit_axis (u := -u.x) x1 x2).1
  have ay := (exit_axis (u := -u.y) y1 y2).1
  have az := (exit_axis (u := -u.z) z1 z2).1
  unfold exitDistF
  simp only
  rw [insideF_written h _ _ _ _ _ _ (show InBox _ _ _ from ⟨x1, x2, y1, y2, z1, z2⟩), hu.neg.normalized]
  exact max_le (h.nonpos az).2.2 (max_le (h.nonpos ay).2.2 (h.nonpos ax).2.2)

/-- (Device of the proofs.) The value written to `distance` by a step of the march. -/
noncomputable def nextD (rnd : ℝ → ℝ) (s : ℝ) (o u : Vec3) (t0 t1 : ℝ) : ℝ :=
  t0 - exitDistF rnd s (octOf s (along o u t0)).1 (octOf s (along o u t0)).2.1 (octOf s (along o u t0)).2.2
    (along o u t0) u (rnd (t1 - t0))

/-- (Device of the proofs.) The parameter of the next point of the march. -/
noncomputable def nextTF (rnd : ℝ → ℝ) (res s : ℝ) (o u : Vec3) (t0 t1 : ℝ) : ℝ :=
  rnd (nextD rnd s o u t0 t1 + res * 0.1)

/-- The march gains at least half of the intended tenth of a cell within 800000 cells. -/
theorem nextTF_ge {rnd : ℝ → ℝ} (hrnd : Rounding rnd) {res : ℝ} (hres : 0 < res) {s : ℝ} {o u : Vec3} {t0 : ℝ}
    (hu : Unit3 u) (h : InCube s (along o u t0)) (t1 : ℝ) (h0 : 0 ≤ t0) (hT : t0 ≤ 800000 * res) :
    t0 + res * 0.05 ≤ nextTF rnd res s o u t0 t1 := by
  have := exitF_le hrnd hu (inOct_octOf h) (rnd (t1 - t0))
  unfold nextTF
  have hd : t0 ≤ nextD rnd s o u t0 t1 := by unfold nextD; linarith
  have := (hrnd.nonneg (x := nextD rnd s o u t0 t1 + res * 0.1) (by linarith)).1
  set y := nextD rnd s o u t0 t1
  have e : (y + res * 0.1) - (y + res * 0.1) / 2 ^ 24 ≥ (t0 + res * 0.1) - (t0 + res * 0.1) / 2 ^ 24 := by
    linarith
  linarith

theorem raytraceF_done {rnd : ℝ → ℝ} {res : ℝ} {f : ℕ} {s : ℝ} {oc : Bool} {ch : Fin 8 → OctNode} {o u : Vec3} {t0 t1 : ℝ}
    (h : t1 < t0 ∨ ¬ InCube s (along o u t0)) :
    raytraceF rnd res (f + 1) (.node s oc ch) o u t0 t1 = .ok (.node s oc ch) := by
  rw [← not_outside, not_not] at h
  unfold raytraceF
  by_cases h1 : t1 < t0
  · rw [if_pos h1]
  · rw [if_neg h1, add_smul_along, if_pos (h.resolve_left h1)]

theorem raytraceF_null {rnd : ℝ → ℝ} {res : ℝ} {f : ℕ} {s : ℝ} {oc : Bool} {ch : Fin 8 → OctNode} {o u : Vec3} {t0 t1 : ℝ}
    (h1 : ¬ t1 < t0) (h2 : InCube s (along o u t0)) (hn : ch (octIdx s o u t0) = .null) :
    raytraceF rnd res (f + 1) (.node s oc ch) o u t0 t1 =
      raytraceF rnd res f (.node s false ch) o u (nextTF rnd res s o u t0 t1) t1 := by
  rw [← not_outside] at h2
  conv_lhs => unfold raytraceF
  rw [if_neg h1, add_smul_along, if_neg h2]
  unfold octIdx octOf at hn
  unfold nextTF nextD octOf
  generalize along o u t0 = q at *
  simp only at hn ⊢
  rw [hn]

theorem raytraceF_child {rnd : ℝ → ℝ} {res : ℝ} {f : ℕ} {s : ℝ} {oc : Bool} {ch : Fin 8 → OctNode} {o u : Vec3} {t0 t1 : ℝ}
    (h1 : ¬ t1 < t0) (h2 : InCube s (along o u t0)) (hn : ch (octIdx s o u t0) ≠ .null) :
    raytraceF rnd res (f + 1) (.node s oc ch) o u t0 t1 =
      match raytraceF rnd res f (ch (octIdx s o u t0)) (o - octShift s o u t0) u t0 t1 with
      | .error e => .error e
      | .ok c => raytraceF rnd res f (.node s false (Function.update ch (octIdx s o u t0) c)) o u
          (nextTF rnd res s o u t0 t1) t1 := by
  rw [← not_outside] at h2
  conv_lhs => unfold raytraceF
  rw [if_neg h1, add_smul_along, if_neg h2]
  unfold octIdx octOf at hn
  unfold octIdx octShift nextTF nextD octOf
  simp only [bind, Except.bind, pure, Except.pure]
  generalize index _ _ _ = i at *
  cases hc : ch i with
  | null => exact absurd hc hn
  | node s' oc' ch' =>
    generalize raytraceF rnd res f (.node s' oc' ch') _ u t0 t1 = x
    cases x <;> rfl

theorem raytraceF_steady (rnd : ℝ → ℝ) (res : ℝ) (n : OctNode) (o u : Vec3) (t0 t1 : ℝ) :
    Steady fun f => raytraceF rnd res f n o u t0 t1 := by
  intro f
  simp only
  induction f generalizing n o t0 with
  | zero => intro h; exact absurd rfl h
  | succ f ih =>
    intro h
    cases n with
    | null => rfl
    | node s oc ch =>
      by_cases h0 : t1 < t0 ∨ ¬ InCube s (along o u t0)
      · rw [raytraceF_done h0, raytraceF_done h0]
      · push Not at h0
        obtain ⟨h1, h2⟩ := h0
        rw [← not_lt] at h1
        by_cases hn : ch (octIdx s o u t0) = .null
        · rw [raytraceF_null h1 h2 hn] at h
          rw [raytraceF_null h1 h2 hn, raytraceF_null h1 h2 hn]
          exact ih _ _ _ h
        · rw [raytraceF_child h1 h2 hn] at h
          rw [raytraceF_child h1 h2 hn, raytraceF_child h1 h2 hn]
          have hc := ih (ch (octIdx s o u t0)) (o - octShift s o u t0) t0
          cases hr : raytraceF rnd res f (ch (octIdx s o u t0)) (o - octShift s o u t0) u t0 t1 with
          | error e =>
            rw [hr] at h
            rw [hc (by rw [hr]; exact h), hr]
          | ok c' =>
            rw [hr] at h
            rw [hc (by rw [hr]; simp), hr]
            exact ih _ _ _ h


theorem intersectRayF_out {rnd : ℝ → ℝ} {res : ℝ} {f : ℕ} {s : ℝ} {ch : Fin 8 → OctNode} {o u : Vec3} (hu : Unit3 u)
    {t0 t1 d : ℝ} (h : ¬ InCube s (along o u t0)) :
    intersectRayF rnd res (f + 1) (.node s false ch) (Ray.new o u) t0 t1 d = .ok (false, d) := by
  rw [← not_outside, not_not] at h
  unfold intersectRayF
  rw [if_neg (by simp), show (Ray.new o u).direction = u from hu.normalized,
    show (Ray.new o u).origin = o from rfl, add_smul_along, if_pos h]

theorem intersectRayF_null {rnd : ℝ → ℝ} {res : ℝ} {f : ℕ} {s : ℝ} {ch : Fin 8 → OctNode} {o u : Vec3} (hu : Unit3 u)
    {t0 t1 d : ℝ} (h2 : InCube s (along o u t0)) (hn : ch (octIdx s o u t0) = .null) :
    intersectRayF rnd res (f + 1) (.node s false ch) (Ray.new o u) t0 t1 d =
      intersectRayF rnd res f (.node s false ch) (Ray.new o u) (nextTF rnd res s o u t0 t1) t1
        (nextD rnd s o u t0 t1) := by
  rw [← not_outside] at h2
  conv_lhs => unfold intersectRayF
  rw [if_neg (by simp), show (Ray.new o u).direction = u from hu.normalized,
    show (Ray.new o u).origin = o from rfl, add_smul_along, if_neg h2]
  unfold octIdx octOf at hn
  unfold nextTF nextD octOf
  generalize along o u t0 = q at *
  simp only at hn ⊢
  rw [hn]

theorem intersectRayF_child {rnd : ℝ → ℝ} {res : ℝ} {f : ℕ} {s : ℝ} {ch : Fin 8 → OctNode} {o u : Vec3} (hu : Unit3 u)
    {t0 t1 d : ℝ} (h2 : InCube s (along o u t0)) (hn : ch (octIdx s o u t0) ≠ .null) :
    intersectRayF rnd res (f + 1) (.node s false ch) (Ray.new o u) t0 t1 d =
      match intersectRayF rnd res f (ch (octIdx s o u t0)) (Ray.new (o - octShift s o u t0) u) t0 t1 d with
      | .error e => .error e
      | .ok (true, d') => .ok (true, d')
      | .ok (false, _) => intersectRayF rnd res f (.node s false ch) (Ray.new o u) (nextTF rnd res s o u t0 t1) t1
        (nextD rnd s o u t0 t1) := by
  rw [← not_outside] at h2
  conv_lhs => unfold intersectRayF
  rw [if_neg (by simp), show (Ray.new o u).direction = u from hu.normalized,
    show (Ray.new o u).origin = o from rfl, add_smul_along, if_neg h2]
  unfold octIdx octOf at hn
  unfold octIdx octShift nextTF nextD octOf
  simp only
  generalize index _ _ _ = i at *
  cases hc : ch i with
  | null => exact absurd hc hn
  | node s' oc' ch' =>
    generalize intersectRayF rnd res f (.node s' oc' ch') _ t0 t1 d = x
    rcases x with e | ⟨_ | _, d'⟩ <;> rfl

theorem intersectRayF_occ {rnd : ℝ → ℝ} {res : ℝ} {f : ℕ} {s : ℝ} {ch : Fin 8 → OctNode} {r : Ray}
    {t0 t1 d : ℝ} : intersectRayF rnd res (f + 1) (.node s true ch) r t0 t1 d = .ok (true, d) := by
  unfold intersectRayF
  simp

theorem intersectRayF_steady (rnd : ℝ → ℝ) (res : ℝ) (n : OctNode) (o u : Vec3) (hu : Unit3 u) (t0 t1 d : ℝ) :
    Steady fun f => intersectRayF rnd res f n (Ray.new o u) t0 t1 d := by
  intro f
  simp only
  induction f generalizing n o t0 d with
  | zero => intro h; exact absurd rfl h
  | succ f ih =>
    intro h
    cases n with
    | null => rfl
    | node s oc ch =>
      cases oc with
      | true => rw [intersectRayF_occ, intersectRayF_occ]
      | false =>
        by_cases h2 : InCube s (along o u t0)
        · by_cases hn : ch (octIdx s o u t0) = .null
          · rw [intersectRayF_null hu h2 hn] at h
            rw [intersectRayF_null hu h2 hn, intersectRayF_null hu h2 hn]
            exact ih _ _ _ _ h
          · rw [intersectRayF_child hu h2 hn] at h
            rw [intersectRayF_child hu h2 hn, intersectRayF_child hu h2 hn]
            have hc := ih (ch (octIdx s o u t0)) (o - octShift s o u t0) t0 d
            cases hr : intersectRayF rnd res f (ch (octIdx s o u t0)) (Ray.new (o - octShift s o u t0) u) t0 t1 d with
            | error e =>
              rw [hr] at h
              rw [hc (by rw [hr]; exact h), hr]
            | ok x =>
              rw [hr] at h
              rw [hc (by rw [hr]; simp), hr]
              rcases x with ⟨_ | _, d'⟩
              · exact ih _ _ _ _ h
              · rfl
        · rw [intersectRayF_out hu h2, intersectRayF_out hu h2]


/-- Tracing terminates within 800000 cells: beyond parameter `T` the ray is outside the cube. -/
theorem raytraceF_total {rnd : ℝ → ℝ} (hrnd : Rounding rnd) {res : ℝ} (hres : 0 < res) {u : Vec3} (hu : Unit3 u)
    (t1 T : ℝ) (hT0 : T ≤ 800000 * res) (f : ℕ) :
    ∀ (k m : ℕ) (n : OctNode) (o : Vec3) (t0 : ℝ), k + m + 1 ≤ f → n ≠ .null → WF k (res * 2 ^ k) n → 0 ≤ t0 →
      (∀ t, T < t → ¬ InCube (res * 2 ^ k) (along o u t)) →
      T - t0 < m * (res * 0.05) → ∃ n', raytraceF rnd res f n o u t0 t1 = .ok n' ∧ n' ≠ .null ∧
        WF k (res * 2 ^ k) n' := by
  induction f with
  | zero => intro k m n o t0 h; omega
  | succ f ih =>
    intro k m n o t0 hf hn hw ht0 hT hm
    cases n with
    | null => exact absurd rfl hn
    | node s oc ch =>
      have hs : s = res * 2 ^ k := by cases k <;> exact hw.1
      by_cases h0 : t1 < t0 ∨ ¬ InCube s (along o u t0)
      · exact ⟨_, raytraceF_done h0, hn, hw⟩
      push Not at h0
      obtain ⟨h1, h2⟩ := h0
      rw [← not_lt] at h1
      have htT : t0 ≤ T := by
        by_contra h
        push Not at h
        exact hT t0 h (hs ▸ h2)
      have hnext := nextTF_ge hrnd hres hu h2 t1 ht0 (htT.trans hT0)
      have hm1 : m ≠ 0 := by
        rintro rfl
        push_cast at hm
        linarith
      obtain ⟨m, rfl⟩ : ∃ m', m = m' + 1 := ⟨m - 1, by omega⟩
      have hm' : T - nextTF rnd res s o u t0 t1 < m * (res * 0.05) := by
        push_cast at hm
        linarith
      have ht' : 0 ≤ nextTF rnd res s o u t0 t1 := by linarith
      by_cases hc : ch (octIdx s o u t0) = .null
      · rw [raytraceF_null h1 h2 hc]
        refine ih k m _ o _ (by omega) (by simp) ?_ ht' hT hm'
        cases k with
        | zero => exact ⟨hw.1, hw.2⟩
        | succ k => exact ⟨hw.1, rfl, hw.2.2⟩
      · cases k with
        | zero => exact absurd (hw.2 _) hc
        | succ k =>
          have e : res * 2 ^ (k + 1) / 2 = res * 2 ^ k := by rw [pow_succ]; ring
          obtain ⟨-, ho, hch⟩ := hw
          rw [e] at hch
          obtain ⟨c', hr, hne, hw'⟩ := ih k (m + 1) (ch (octIdx s o u t0)) (o - octShift s o u t0) t0
            (by omega) hc (hch _) ht0 (fun t ht h => hT t ht (by
              rw [← e, ← hs] at h
              rw [← hs]
              exact octShift_cube h (by rw [hs]; positivity))) hm
          rw [raytraceF_child h1 h2 hc, hr]
          refine ih (k + 1) m _ o _ (by omega) (by simp) ⟨hs, rfl, ?_⟩ ht' hT hm'
          intro i
          rw [e]
          by_cases hi : i = octIdx s o u t0
          · subst hi; rw [Function.update_self]; exact hw'
          · rw [Function.update_of_ne hi]; exact hch i

/-- Casting terminates within 800000 cells: beyond parameter `T` the ray is outside the cube. -/
theorem intersectRayF_total {rnd : ℝ → ℝ} (hrnd : Rounding rnd) {res : ℝ} (hres : 0 < res) {u : Vec3} (hu : Unit3 u)
    (t1 T : ℝ) (hT0 : T ≤ 800000 * res) (f : ℕ) :
    ∀ (k m : ℕ) (n : OctNode) (o : Vec3) (t0 d : ℝ), k + m + 1 ≤ f → n ≠ .null → WF k (res * 2 ^ k) n → 0 ≤ t0 →
      (∀ t, T < t → ¬ InCube (res * 2 ^ k) (along o u t)) →
      T - t0 < m * (res * 0.05) → ∃ x, intersectRayF rnd res f n (Ray.new o u) t0 t1 d = .ok x := by
  induction f with
  | zero => intro k m n o t0 d h; omega
  | succ f ih =>
    intro k m n o t0 d hf hn hw ht0 hT hm
    cases n with
    | null => exact absurd rfl hn
    | node s oc ch =>
      have hs : s = res * 2 ^ k := by cases k <;> exact hw.1
      cases oc with
      | true => exact ⟨_, intersectRayF_occ⟩
      | false =>
      by_cases h2 : InCube s (along o u t0)
      swap
      · exact ⟨_, intersectRayF_out hu h2⟩
      have htT : t0 ≤ T := by
        by_contra h
        push Not at h
        exact hT t0 h (hs ▸ h2)
      have hnext := nextTF_ge hrnd hres hu h2 t1 ht0 (htT.trans hT0)
      have hm1 : m ≠ 0 := by
        rintro rfl
        push_cast at hm
        linarith
      obtain ⟨m, rfl⟩ : ∃ m', m = m' + 1 := ⟨m - 1, by omega⟩
      have hm' : T - nextTF rnd res s o u t0 t1 < m * (res * 0.05) := by
        push_cast at hm
        linarith
      obtain ⟨x, hx⟩ := ih k m (.node s false ch) o (nextTF rnd res s o u t0 t1)
        (nextD rnd s o u t0 t1) (by omega) hn hw (by linarith) hT hm'
      by_cases hc : ch (octIdx s o u t0) = .null
      · exact ⟨x, by rw [intersectRayF_null hu h2 hc, hx]⟩
      · cases k with
        | zero => exact absurd (hw.2 _) hc
        | succ k =>
          have e : res * 2 ^ (k + 1) / 2 = res * 2 ^ k := by rw [pow_succ]; ring
          obtain ⟨-, ho, hch⟩ := hw
          rw [e] at hch
          obtain ⟨y, hy⟩ := ih k (m + 1) (ch (octIdx s o u t0)) (o - octShift s o u t0) t0 d
            (by omega) hc (hch _) ht0 (fun t ht h => hT t ht (by
              rw [← e, ← hs] at h
              rw [← hs]
              exact octShift_cube h (by rw [hs]; positivity))) hm
          rw [intersectRayF_child hu h2 hc, hy]
          rcases y with ⟨_ | _, d'⟩
          · exact ⟨x, hx⟩
          · exact ⟨_, rfl⟩

/-- A reported hit is at a probed point of an occupied cell, whatever the rounding. -/
theorem intersectRayF_sound {rnd : ℝ → ℝ} {res : ℝ} {u : Vec3} (hu : Unit3 u) (t1 : ℝ) (f : ℕ) :
    ∀ (k : ℕ) (n : OctNode) (o : Vec3) (t0 d d' : ℝ), WF k (res * 2 ^ k) n →
      intersectRayF rnd res f n (Ray.new o u) t0 t1 d = .ok (true, d') →
      ∃ t c, Occ k n c ∧ (Near res c (along o u t) ∨ (k = 0 ∧ t = t0)) ∧
        ((t = t0 ∧ d' = d) ∨ t = rnd (d' + res * 0.1)) := by
  induction f with
  | zero => intro k n o t0 d d' _ h; exact absurd h (by simp [intersectRayF])
  | succ f ih =>
    intro k n o t0 d d' hw h
    cases n with
    | null => exact absurd h (by simp [intersectRayF])
    | node s oc ch =>
      have hs : s = res * 2 ^ k := by cases k <;> exact hw.1
      cases oc with
      | true =>
        rw [intersectRayF_occ] at h
        simp only [Except.ok.injEq, Prod.mk.injEq] at h
        obtain ⟨-, rfl⟩ := h
        cases k with
        | succ k => exact absurd hw.2.1 (by simp)
        | zero => exact ⟨t0, (0, 0, 0), ⟨rfl, rfl⟩, Or.inr ⟨rfl, rfl⟩, Or.inl ⟨rfl, rfl⟩⟩
      | false =>
      by_cases h2 : InCube s (along o u t0)
      swap
      · rw [intersectRayF_out hu h2] at h
        simp at h
      cases k with
      | zero =>
        rw [intersectRayF_null hu h2 (hw.2 _)] at h
        obtain ⟨t, c, hc, -⟩ := ih 0 _ o _ _ d' hw h
        exact absurd hc.1 (by simp)
      | succ k =>
        have e : res * 2 ^ (k + 1) / 2 = res * 2 ^ k := by rw [pow_succ]; ring
        have hs2 : s / 2 = res * 2 ^ k := by rw [hs, e]
        have hw' := hw
        obtain ⟨-, ho, hch⟩ := hw
        rw [e] at hch
        set b := octOf s (along o u t0) with hb
        have hoct : InOct s b (along o u t0) := inOct_octOf h2
        have rest : intersectRayF rnd res f (.node s false ch) (Ray.new o u) (nextTF rnd res s o u t0 t1) t1
              (nextD rnd s o u t0 t1) = .ok (true, d') →
            ∃ t c, Occ (k + 1) (.node s false ch) c ∧ (Near res c (along o u t) ∨ (k + 1 = 0 ∧ t = t0)) ∧
              ((t = t0 ∧ d' = d) ∨ t = rnd (d' + res * 0.1)) := by
          intro h
          obtain ⟨t, c, c1, c2, c3⟩ := ih (k + 1) _ o _ _ d' hw' h
          refine ⟨t, c, c1, Or.inl (c2.resolve_right (by simp)), Or.inr ?_⟩
          rcases c3 with ⟨rfl, rfl⟩ | c3
          · rfl
          · exact c3
        by_cases hc0 : ch (octIdx s o u t0) = .null
        · rw [intersectRayF_null hu h2 hc0] at h
          exact rest h
        · rw [intersectRayF_child hu h2 hc0] at h
          cases hr' : intersectRayF rnd res f (ch (octIdx s o u t0)) (Ray.new (o - octShift s o u t0) u) t0 t1 d with
          | error e => rw [hr'] at h; cases h
          | ok z =>
            rw [hr'] at h
            rcases z with ⟨hz, dz⟩
            cases hz with
            | false => exact rest h
            | true =>
              simp only [Except.ok.injEq, Prod.mk.injEq] at h
              obtain ⟨-, rfl⟩ := h
              have hin' : InCube (res * 2 ^ k) (along (o - octShift s o u t0) u t0) := by
                rw [along_sub, ← hs2]
                exact inOct_shift.1 hoct
              obtain ⟨t, c, h1, h3, h4⟩ := ih k _ _ _ _ dz (hch _) hr'
              refine ⟨t, up k b c, occ_succ.2 ⟨b, c, rfl, h1⟩, Or.inl ?_, h4⟩
              rw [near_up, ← hs]
              rcases h3 with h3 | ⟨rfl, rfl⟩
              · rw [along_sub] at h3; exact h3
              · obtain ⟨-, rfl⟩ : c.1 = 0 ∧ c = (0, 0, 0) := by
                  have := h1.lt
                  obtain ⟨c1, c2, c3⟩ := c
                  simp at this
                  obtain ⟨rfl, rfl, rfl⟩ := this
                  exact ⟨rfl, rfl⟩
                rw [along_sub, show octShift s o u t = shift s b.1 b.2.1 b.2.2 from rfl] at hin'
                simpa [Near, InCube] using hin'

/-- With exact casts the cast of `Model/Octree`. -/
theorem intersectRayF_id (res : ℝ) (f : ℕ) : ∀ (n : OctNode) (r : Ray) (t0 t1 d : ℝ),
    intersectRayF id res f n r t0 t1 d = intersectRay res f n r t0 t1 d := by
  induction f with
  | zero => intros; rfl
  | succ f ih =>
    intro n r t0 t1 d
    cases n with
    | null => rfl
    | node s oc ch =>
      unfold intersectRayF intersectRay
      simp only [ih, id]
      rfl

/-- With exact casts the tracing of `Model/Octree`. -/
theorem raytraceF_id (res : ℝ) (f : ℕ) : ∀ (n : OctNode) (o u : Vec3) (t0 t1 : ℝ),
    raytraceF id res f n o u t0 t1 = raytrace res f n o u t0 t1 := by
  induction f with
  | zero => intros; rfl
  | succ f ih =>
    intro n o u t0 t1
    cases n with
    | null => rfl
    | node s oc ch =>
      unfold raytraceF raytrace
      simp only [ih, id]
      rfl

end OctNode

namespace Octree

open OctNode

/-- With exact casts the queries of `Model/Octree`. -/
theorem intersectRayF_id (t : Octree) (r : Ray) (t0 t1 d : ℝ) :
    t.intersectRayF id r t0 t1 d = t.intersectRay r t0 t1 d := by
  unfold intersectRayF intersectRay
  simp only [OctNode.intersectRayF_id, Geo.intersectRayF_id, id]

/-- With exact casts the queries of `Model/Octree`. -/
theorem raytraceF_id (t : Octree) (r : Ray) (t0 t1 : ℝ) : t.raytraceF id r t0 t1 = t.raytrace r t0 t1 := by
  unfold raytraceF raytrace
  simp only [OctNode.raytraceF_id, Geo.intersectRayF_id, id]

/-- (Device of the proofs.) The first probed parameter of a ray query. -/
noncomputable def startF (rnd : ℝ → ℝ) (t : Octree) (r : Ray) (t0 t1 : ℝ) : ℝ :=
  rnd (t0 + Max.max ((Box.new t.offset t.max).intersectRayF rnd r t0 t1 0).2 0 + t.resolution * 0.1)

theorem startF_nonneg {rnd : ℝ → ℝ} (hrnd : Rounding rnd) {t : Octree} (h : 0 < t.resolution) (r : Ray) {t0 : ℝ}
    (h0 : 0 ≤ t0) (t1 : ℝ) : 0 ≤ t.startF rnd r t0 t1 := by
  refine (hrnd.nonneg ?_).2.2
  have := le_max_right ((Box.new t.offset t.max).intersectRayF rnd r t0 t1 0).2 0
  have := mul_pos h (by norm_num : (0:ℝ) < 0.1)
  linarith

/-- The ray cast on a tree whose cube is hit. -/
theorem intersectRayF_good {rnd : ℝ → ℝ} (hrnd : Rounding rnd) {k : ℕ} {size : ℝ} {t : Octree} (h : Good k size t)
    {o d u : Vec3} (hu : UnitAlong d u) {t0 : ℝ} (h0 : 0 ≤ t0) (t1 d0 : ℝ)
    (hfar : ∀ s, InCube size (along (o - t.offset) u s) → s ≤ 800000 * t.resolution)
    (hhit : ((Box.new t.offset t.max).intersectRayF rnd (Ray.new o d) t0 t1 0).1 = true) :
    ∃ hit d' f, t.intersectRayF rnd (Ray.new o d) t0 t1 d0 = .ok (hit, d') ∧
      t.root.intersectRayF rnd t.resolution f (Ray.new (o - t.offset) u) (t.startF rnd (Ray.new o d) t0 t1) t1 d0 =
        .ok (hit, d') := by
  have hun := unit_of hu
  have hdir : (Ray.new o d).direction = u := unitAlong_normalized hu
  set s0 := t.startF rnd (Ray.new o d) t0 t1 with hs0
  obtain ⟨m, hm⟩ := exists_nat_gt ((800000 * t.resolution - s0) / (t.resolution * 0.05))
  have hr : 0 < t.resolution * 0.05 := mul_pos h.pos (by norm_num)
  rw [div_lt_iff₀ hr] at hm
  obtain ⟨⟨hit, d'⟩, hx⟩ := intersectRayF_total hrnd h.pos hun t1 (800000 * t.resolution) le_rfl (k + m + 1) k m t.root
    (o - t.offset) s0 d0 le_rfl h.root (root_wf h) (startF_nonneg hrnd h.pos _ h0 _)
    (by rw [h.res]; exact fun t ht hc => not_lt.2 (hfar t hc) ht) hm
  refine ⟨hit, d', k + m + 1, ?_, hx⟩
  have := (intersectRayF_steady rnd t.resolution t.root (o - t.offset) u hun s0 t1 d0).eq hx (by simp)
  unfold Octree.intersectRayF
  simp only [hhit, Bool.not_true, Bool.false_eq_true, if_false, hdir]
  exact this

/-- Tracing through a tree. -/
theorem raytraceF_good {rnd : ℝ → ℝ} (hrnd : Rounding rnd) {k : ℕ} {size : ℝ} {t : Octree} (h : Good k size t)
    {o d u : Vec3} (hu : UnitAlong d u) {t0 : ℝ} (h0 : 0 ≤ t0) (t1 : ℝ)
    (hfar : ∀ s, InCube size (along (o - t.offset) u s) → s ≤ 800000 * t.resolution) :
    ∃ t', t.raytraceF rnd (Ray.new o d) t0 t1 = .ok t' ∧ Good k size t' ∧ t'.resolution = t.resolution := by
  cases hhit : ((Box.new t.offset t.max).intersectRayF rnd (Ray.new o d) t0 t1 0).1 with
  | false =>
    refine ⟨t, ?_, h, rfl⟩
    unfold Octree.raytraceF
    simp [hhit]
  | true =>
  have hun := unit_of hu
  have hdir : (Ray.new o d).direction = u := unitAlong_normalized hu
  set s0 := t.startF rnd (Ray.new o d) t0 t1 with hs0
  obtain ⟨m, hm⟩ := exists_nat_gt ((800000 * t.resolution - s0) / (t.resolution * 0.05))
  have hr : 0 < t.resolution * 0.05 := mul_pos h.pos (by norm_num)
  rw [div_lt_iff₀ hr] at hm
  obtain ⟨n, hx, hne, hw⟩ := raytraceF_total hrnd h.pos hun t1 (800000 * t.resolution) le_rfl (k + m + 1) k m t.root
    (o - t.offset) s0 le_rfl h.root (root_wf h) (startF_nonneg hrnd h.pos _ h0 _)
    (by rw [h.res]; exact fun t ht hc => not_lt.2 (hfar t hc) ht) hm
  rw [h.res] at hw
  have hg : Good k size { t with root := n } := ⟨h.size_eq, h.res, h.tol, h.off, h.max, hne, hw⟩
  obtain ⟨t', a1, a2, a3, a4, a5, a6⟩ := add_good hg (along o u t1)
  refine ⟨{ t' with mesh := t'.mesh.clear }, ?_,
    ⟨a2.size_eq, a2.res, a2.tol, a2.off, a2.max, a2.root, a2.wf⟩, a3⟩
  have hub := (raytraceF_steady rnd t.resolution t.root (o - t.offset) u s0 t1).eq hx (by simp)
  have he : (Ray.new o d).origin + (Ray.new o d).direction * t1 = along o u t1 := by
    rw [hdir]
    show o + u * t1 = _
    unfold along
    ext <;> simp <;> ring
  unfold Octree.raytraceF
  simp only [hhit, Bool.not_true, Bool.false_eq_true, if_false, hdir]
  rw [hdir] at he
  simp only [he]
  unfold startF at hs0
  rw [hs0] at hub
  show (unbounded (fun n => t.root.raytraceF rnd t.resolution n (o - t.offset) u _ t1) >>= _) = _
  rw [hub]
  simp only [bind, Except.bind, pure, Except.pure, a1]

end Octree

end Geo
