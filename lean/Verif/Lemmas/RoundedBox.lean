import Verif.Model.RoundedBox
import Verif.Lemmas.Box
import Verif.Lemmas.RoundedShape
import Verif.Lemmas.Chains

/-! # Helper lemmas about rays and boxes in floating point arithmetic -/

namespace Geo.RoundedBox
open Spec Rounded

variable {u v : ℝ} {rnd toF : ℝ → ℝ}

/-! ## Rays -/

/-- The lower bound of one axis as computed. (Device of the proofs.) -/
noncomputable def lowF (rnd toF : ℝ → ℝ) (lo hi o d : ℝ) : ℝ :=
  toF (rnd (rnd ((if d < 0 then hi else lo) - o) * Rounded.invComponent rnd d))
/-- The upper bound of one axis as computed. (Device of the proofs.) -/
noncomputable def highF (rnd toF : ℝ → ℝ) (lo hi o d : ℝ) : ℝ :=
  toF (rnd (rnd ((if d < 0 then lo else hi) - o) * Rounded.invComponent rnd d))

theorem boxRay_eq (b : Box) (o d : Vec3) (t0 t1 d0 : ℝ) :
    boxRay rnd toF b (rayNew rnd o d) t0 t1 d0 =
      (let a1 := lowF rnd toF b.lo.x b.hi.x o.x (Rounded.normalized rnd d).x
       let a2 := highF rnd toF b.lo.x b.hi.x o.x (Rounded.normalized rnd d).x
       let b1 := lowF rnd toF b.lo.y b.hi.y o.y (Rounded.normalized rnd d).y
       let b2 := highF rnd toF b.lo.y b.hi.y o.y (Rounded.normalized rnd d).y
       let c1 := lowF rnd toF b.lo.z b.hi.z o.z (Rounded.normalized rnd d).z
       let c2 := highF rnd toF b.lo.z b.hi.z o.z (Rounded.normalized rnd d).z
       if a1 > b2 ∨ b1 > a2 then (false, d0) else
        if max b1 a1 > c2 ∨ c1 > min b2 a2 then (false, d0) else
          (@decide (t0 < min c2 (min b2 a2) ∧ max c1 (max b1 a1) < t1) (Classical.propDecidable _),
            max c1 (max b1 a1))) := by
  have e : ∀ (p : Prop) [Decidable p], (Box.bound b (decide p)) = if p then b.hi else b.lo := by
    intro p _; unfold Box.bound; by_cases hp : p <;> simp [hp]
  have e' : ∀ (p : Prop) [Decidable p], (Box.bound b (!decide p)) = if p then b.lo else b.hi := by
    intro p _; unfold Box.bound; by_cases hp : p <;> simp [hp]
  have fx : ∀ (p : Prop) [Decidable p] (u v : Vec3), (if p then u else v).x = if p then u.x else v.x :=
    fun p _ u v => by split_ifs <;> rfl
  have fy : ∀ (p : Prop) [Decidable p] (u v : Vec3), (if p then u else v).y = if p then u.y else v.y :=
    fun p _ u v => by split_ifs <;> rfl
  have fz : ∀ (p : Prop) [Decidable p] (u v : Vec3), (if p then u else v).z = if p then u.z else v.z :=
    fun p _ u v => by split_ifs <;> rfl
  unfold boxRay rayNew lowF highF
  simp only [e, e', fx, fy, fz]
  congr

/-- A rounding of a value with a relative error. -/
theorem rel_step (h : RelErr u rnd) (hu0 : 0 ≤ u) (hu : u ≤ 1 / 1000) {k x y : ℝ} (hk : k ≤ 20)
    (hy : |y - x| ≤ k * u * |x|) : |rnd y - x| ≤ (k + 1.02) * u * |x| :=
  Rounded.step h hu0 hu hk le_rfl hy

/-- The components of the computed direction are those of the unit vector up to a relative error. -/
theorem normalized_err (h : RelErr u rnd) (hu : u ≤ 1 / 1000) {d e : Vec3} (he : UnitAlong d e) :
    let n := Rounded.normalized rnd d
    |n.x - e.x| ≤ 3.6 * u * |e.x| ∧ |n.y - e.y| ≤ 3.6 * u * |e.y| ∧ |n.z - e.z| ≤ 3.6 * u * |e.z| := by
  have hu0 := relErr_nonneg h
  obtain ⟨h1, l, hl, hx, hy, hz⟩ := he
  have R : Rnd u 0 rnd := ⟨le_rfl, hu0, hu, h⟩
  have hlen : d.length = l := by
    unfold Vec3.length
    rw [hx, hy, hz, show l * e.x * (l * e.x) + l * e.y * (l * e.y) + l * e.z * (l * e.z) =
      l ^ 2 * (e.x ^ 2 + e.y ^ 2 + e.z ^ 2) by ring, h1, mul_one]
    exact Real.sqrt_sq hl.le
  have hL := R.length d
  rw [hlen] at hL
  obtain ⟨m, hm⟩ : ∃ m, m = Rounded.length rnd d := ⟨_, rfl⟩
  rw [← hm] at hL
  have hmp : 0.99 * l ≤ m := by
    have := (abs_le.1 hL).1
    nlinarith
  have hm0 : 0 < m := by linarith
  have key : ∀ c, |rnd (l * c / m) - c| ≤ 3.6 * u * |c| := by
    intro c
    have : |l * c / m - c| ≤ 2.55 * u * |c| := by
      rw [show l * c / m - c = (l - m) / m * c by field_simp, abs_mul, abs_div, abs_of_pos hm0, abs_sub_comm]
      refine mul_le_mul_of_nonneg_right ?_ (abs_nonneg c)
      rw [div_le_iff₀ hm0]
      have a := (abs_le.1 hL).1
      have : l ≤ m * 1.003 := by nlinarith
      have : 2.52 * u * l ≤ 2.52 * u * (m * 1.003) := mul_le_mul_of_nonneg_left this (by positivity)
      have : 0 ≤ u * m := by positivity
      linarith
    have := rel_step h hu0 hu (by norm_num) this
    have : 0 ≤ u * |c| := by positivity
    linarith
  intro n
  refine ⟨?_, ?_, ?_⟩
  · have := key e.x; rw [← hx, hm] at this; exact this
  · have := key e.y; rw [← hy, hm] at this; exact this
  · have := key e.z; rw [← hz, hm] at this; exact this

/-- What is known of the computed component of a direction that is oblique with a margin. -/
theorem inv_err (h : RelErr u rnd) (hu : u ≤ 1 / 1000) {e n : ℝ} (hn : |n - e| ≤ 3.6 * u * |e|)
    (hob : 1e-9 * (1 + 8 * u) ≤ |e|) :
    (n < 0 ↔ e < 0) ∧ e ≠ 0 ∧ Rounded.invComponent rnd n = rnd (1 / n) ∧
      |Rounded.invComponent rnd n - 1 / e| ≤ 4.7 * u * |1 / e| := by
  have hu0 := relErr_nonneg h
  have he : 0 < |e| := lt_of_lt_of_le (by positivity) hob
  have he0 := abs_pos.1 he
  have hue : u * |e| ≤ 0.001 * |e| := mul_le_mul_of_nonneg_right (by linarith) he.le
  have habs : |n| ≥ (1 - 3.6 * u) * |e| := by
    have := abs_sub_abs_le_abs_sub e n
    rw [abs_sub_comm] at this
    linarith
  have hn0 : 0 < |n| := by linarith
  have hnn := abs_pos.1 hn0
  have hbig : ¬ |n| < rnd 1e-9 := by
    have h1 := (abs_le.1 (h 1e-9)).2
    rw [abs_of_pos (by norm_num : (0 : ℝ) < 1e-9)] at h1
    have h2 : (1 - 3.6 * u) * (1e-9 * (1 + 8 * u)) ≤ (1 - 3.6 * u) * |e| :=
      mul_le_mul_of_nonneg_left hob (by linarith)
    have h3 : u * u ≤ 0.001 * u := by nlinarith
    rw [not_lt]
    linarith
  have hinv : Rounded.invComponent rnd n = rnd (1 / n) := by
    unfold Rounded.invComponent
    rw [if_neg hbig]
  refine ⟨?_, he0, hinv, ?_⟩
  · rw [abs_le] at hn
    constructor
    · intro hneg
      by_contra hc
      rw [abs_of_nonneg (not_lt.1 hc)] at hn hue
      linarith
    · intro hneg
      rw [abs_of_neg hneg] at hn hue
      linarith
  · rw [hinv]
    have : |1 / n - 1 / e| ≤ 3.65 * u * |1 / e| := by
      rw [show 1 / n - 1 / e = (e - n) / n * (1 / e) by field_simp, abs_mul, abs_div, abs_sub_comm]
      refine mul_le_mul_of_nonneg_right ?_ (abs_nonneg _)
      rw [div_le_iff₀ hn0]
      have h4 : |e| ≤ 1.004 * |n| := by linarith
      have : 3.6 * u * |e| ≤ 3.6 * u * (1.004 * |n|) := mul_le_mul_of_nonneg_left h4 (by positivity)
      have : 0 ≤ u * |n| := by positivity
      linarith
    have := rel_step h hu0 hu (by norm_num) this
    have : 0 ≤ u * |1 / e| := by positivity
    linarith

/-- The relative error of a bound of an axis. -/
theorem bound_err (h : RelErr u rnd) (hF : RelErr v toF) (hu : u ≤ 1 / 1000) {x i i' : ℝ}
    (hi : |i' - i| ≤ 4.7 * u * |i|) :
    |toF (rnd (rnd x * i')) - x * i| ≤ (7 * u + 1.1 * v) * |x * i| := by
  have hu0 := relErr_nonneg h
  have hv0 := relErr_nonneg hF
  have hx := h x
  have h1 : |rnd x * i' - x * i| ≤ 5.75 * u * |x * i| := by
    rw [show rnd x * i' - x * i = (rnd x - x) * i' + x * (i' - i) by ring]
    refine (abs_add_le _ _).trans ?_
    rw [abs_mul, abs_mul, abs_mul]
    have a : |i'| ≤ 1.0047 * |i| := by
      have := abs_sub_abs_le_abs_sub i' i
      have : u * |i| ≤ 0.001 * |i| := mul_le_mul_of_nonneg_right (by linarith) (abs_nonneg _)
      linarith
    have b : |rnd x - x| * |i'| ≤ u * |x| * (1.0047 * |i|) := mul_le_mul hx a (abs_nonneg _) (by positivity)
    have c : |x| * |i' - i| ≤ |x| * (4.7 * u * |i|) := mul_le_mul_of_nonneg_left hi (abs_nonneg _)
    have : 0 ≤ u * |x| * |i| := by positivity
    linarith
  have h2 := rel_step h hu0 hu (by norm_num) h1
  obtain ⟨y, hy⟩ : ∃ y, y = rnd (rnd x * i') := ⟨_, rfl⟩
  obtain ⟨z, hz⟩ : ∃ z, z = x * i := ⟨_, rfl⟩
  rw [← hy, ← hz] at h2
  rw [← hy, ← hz]
  have h3 := hF y
  have h4 : |y| ≤ 1.01 * |z| := by
    have := abs_sub_abs_le_abs_sub y z
    have : u * |z| ≤ 0.001 * |z| := mul_le_mul_of_nonneg_right (by linarith) (abs_nonneg _)
    linarith [abs_nonneg z]
  have h5 : v * |y| ≤ v * (1.01 * |z|) := mul_le_mul_of_nonneg_left h4 hv0
  have h6 : |toF y - z| ≤ |toF y - y| + |y - z| := abs_sub_le _ _ _
  have : 0 ≤ u * |z| := by positivity
  have : 0 ≤ v * |z| := by positivity
  linarith

/-- Both bounds of an axis. -/
theorem axis_err (h : RelErr u rnd) (hm : Monotone rnd) (hF : RelErr v toF) (hmF : Monotone toF) (hu : u ≤ 1 / 1000)
    {lo hi o e n : ℝ} (hlh : lo ≤ hi) (hn : |n - e| ≤ 3.6 * u * |e|) (hob : 1e-9 * (1 + 8 * u) ≤ |e|) :
    1e-9 ≤ |e| ∧ lowF rnd toF lo hi o n ≤ highF rnd toF lo hi o n ∧
    |lowF rnd toF lo hi o n - slabLo lo hi o e| ≤ (7 * u + 1.1 * v) * |slabLo lo hi o e| ∧
    |highF rnd toF lo hi o n - slabHi lo hi o e| ≤ (7 * u + 1.1 * v) * |slabHi lo hi o e| := by
  have hu0 := relErr_nonneg h
  obtain ⟨s, e0, hi1, hi2⟩ := inv_err h hu hn hob
  have hob' : 1e-9 ≤ |e| := le_trans (by linarith) hob
  have hinv : Geo.invComponent e = 1 / e := by
    unfold Geo.invComponent
    rw [if_neg (not_lt.2 hob')]
  have z : rnd 0 = 0 := by simpa using h 0
  refine ⟨hob', ?_, ?_, ?_⟩
  · unfold lowF highF
    refine hmF (hm ?_)
    by_cases hneg : n < 0
    · rw [if_pos hneg, if_pos hneg]
      refine mul_le_mul_of_nonpos_right (hm (by linarith)) ?_
      rw [hi1, ← z]
      exact hm (one_div_nonpos.2 hneg.le)
    · rw [if_neg hneg, if_neg hneg]
      refine mul_le_mul_of_nonneg_right (hm (by linarith)) ?_
      rw [hi1, ← z]
      exact hm (one_div_nonneg.2 (not_lt.1 hneg))
  · unfold lowF slabLo
    rw [hinv]
    simp only [s]
    exact bound_err h hF hu hi2
  · unfold highF slabHi
    rw [hinv]
    simp only [s]
    exact bound_err h hF hu hi2

/-- A parameter between computed bounds is near one between the exact bounds. -/
theorem near_param {w L H L' H' s : ℝ} (hw0 : 0 ≤ w) (hw : w ≤ 1 / 100) (hLH : L ≤ H) (hL : |L' - L| ≤ w * |L|)
    (hH : |H' - H| ≤ w * |H|) (h1 : L' ≤ s) (h2 : s ≤ H') :
    ∃ r, L ≤ r ∧ r ≤ H ∧ |s - r| ≤ 1.02 * w * |s| := by
  have aux : ∀ K, |s - K| ≤ w * |K| → |s - K| ≤ 1.02 * w * |s| := by
    intro K hK
    have a : |K| ≤ |s| + |s - K| := by
      have := abs_sub_abs_le_abs_sub K s
      rw [abs_sub_comm] at this
      linarith
    have b : w * |K| ≤ 1 / 100 * |K| := mul_le_mul_of_nonneg_right hw (abs_nonneg _)
    have c : |K| ≤ 1.02 * |s| := by linarith [abs_nonneg s]
    have := mul_le_mul_of_nonneg_left c hw0
    linarith
  rcases lt_or_ge s L with hs | hs
  · refine ⟨L, le_rfl, hLH, aux L ?_⟩
    rw [abs_of_neg (by linarith)]
    have := (abs_le.1 hL).1
    linarith
  · rcases lt_or_ge H s with hs' | hs'
    · refine ⟨H, hLH, le_rfl, aux H ?_⟩
      rw [abs_of_pos (by linarith)]
      have := (abs_le.1 hH).2
      linarith
    · exact ⟨s, hs, hs', by simp; positivity⟩

/-- A point in the slab less a margin has its parameter between the computed bounds. -/
theorem inner_param {w L H L' H' s : ℝ} (hw0 : 0 ≤ w) (hw : w ≤ 1 / 100) (hL : |L' - L| ≤ w * |L|)
    (hH : |H' - H| ≤ w * |H|) (h1 : L + 1.02 * w * |s| ≤ s) (h2 : s ≤ H - 1.02 * w * |s|) : L' ≤ s ∧ s ≤ H' := by
  have A := abs_le.1 hL
  have B := abs_le.1 hH
  have hs := abs_nonneg s
  constructor
  · by_contra hc
    push Not at hc
    have a : L < s - 1.02 * w * |s| ∨ L = s - 1.02 * w * |s| := lt_or_eq_of_le (by linarith)
    have b : |L| ≤ |s| + (s - L) := by
      rcases abs_cases L with ⟨e, -⟩ | ⟨e, -⟩ <;> rcases abs_cases s with ⟨f, -⟩ | ⟨f, -⟩ <;>
        nlinarith [mul_nonneg hw0 hs]
    have c : w * |L| ≤ w * (|s| + (s - L)) := mul_le_mul_of_nonneg_left b hw0
    have d : w * (s - L) ≤ 1 / 100 * (s - L) := mul_le_mul_of_nonneg_right hw (by nlinarith [mul_nonneg hw0 hs])
    nlinarith [mul_nonneg hw0 hs]
  · by_contra hc
    push Not at hc
    have b : |H| ≤ |s| + (H - s) := by
      rcases abs_cases H with ⟨e, -⟩ | ⟨e, -⟩ <;> rcases abs_cases s with ⟨f, -⟩ | ⟨f, -⟩ <;>
        nlinarith [mul_nonneg hw0 hs]
    have c : w * |H| ≤ w * (|s| + (H - s)) := mul_le_mul_of_nonneg_left b hw0
    have d : w * (H - s) ≤ 1 / 100 * (H - s) := mul_le_mul_of_nonneg_right hw (by nlinarith [mul_nonneg hw0 hs])
    nlinarith [mul_nonneg hw0 hs]

/-- The larger of two values with relative errors. -/
theorem max_err {q x x' y y' : ℝ} (hq0 : 0 ≤ q) (hq : q ≤ 1 / 100) (hx : |x' - x| ≤ q * |x|) (hy : |y' - y| ≤ q * |y|) :
    |max x' y' - max x y| ≤ q * |max x y| := by
  have mono : ∀ {a b : ℝ}, a ≤ b → a + q * |a| ≤ b + q * |b| := by
    intro a b hab
    have : |a| ≤ |b| + (b - a) := by
      have := abs_sub_abs_le_abs_sub a b
      rw [abs_sub_comm, abs_of_nonneg (by linarith : 0 ≤ b - a)] at this
      linarith
    have h1 := mul_le_mul_of_nonneg_left this hq0
    have h2 : q * (b - a) ≤ 1 / 100 * (b - a) := mul_le_mul_of_nonneg_right hq (by linarith)
    linarith
  rw [abs_le] at hx hy ⊢
  constructor
  · rcases max_choice x y with e | e <;> rw [e]
    · linarith [le_max_left x' y']
    · linarith [le_max_right x' y']
  · rw [sub_le_iff_le_add]
    refine max_le ?_ ?_
    · linarith [mono (le_max_left x y)]
    · linarith [mono (le_max_right x y)]

/-- The least common parameter of three intervals is the largest lower bound. -/
theorem least_max {a1 a2 b1 b2 c1 c2 m : ℝ}
    (h : IsLeast {t | a1 ≤ t ∧ t ≤ a2 ∧ b1 ≤ t ∧ t ≤ b2 ∧ c1 ≤ t ∧ t ≤ c2} m) : m = max c1 (max b1 a1) := by
  obtain ⟨⟨h1, h2, h3, h4, h5, h6⟩, h7⟩ := h
  have l : max c1 (max b1 a1) ≤ m := max_le h5 (max_le h3 h1)
  exact le_antisymm (h7 ⟨by simp, l.trans h2, by simp, l.trans h4, by simp, l.trans h6⟩) l

theorem entry_max {lo hi o e : Vec3} {a : ℝ} (x0 : 1e-9 ≤ |e.x|) (y0 : 1e-9 ≤ |e.y|) (z0 : 1e-9 ≤ |e.z|)
    (ha : IsLeast {s | InBox lo hi (along o e s)} a) :
    a = max (slabLo lo.z hi.z o.z e.z) (max (slabLo lo.y hi.y o.y e.y) (slabLo lo.x hi.x o.x e.x)) := by
  refine least_max (a2 := slabHi lo.x hi.x o.x e.x) (b2 := slabHi lo.y hi.y o.y e.y) (c2 := slabHi lo.z hi.z o.z e.z) ?_
  convert ha using 1
  ext s
  have hx := slab_mem (lo := lo.x) (hi := hi.x) (o := o.x) (t := s) x0
  have hy := slab_mem (lo := lo.y) (hi := hi.y) (o := o.y) (t := s) y0
  have hz := slab_mem (lo := lo.z) (hi := hi.z) (o := o.z) (t := s) z0
  constructor
  · rintro ⟨h1, h2, h3, h4, h5, h6⟩
    obtain ⟨i1, i2⟩ := hx.1 ⟨h1, h2⟩
    obtain ⟨i3, i4⟩ := hy.1 ⟨h3, h4⟩
    obtain ⟨i5, i6⟩ := hz.1 ⟨h5, h6⟩
    exact ⟨i1, i2, i3, i4, i5, i6⟩
  · rintro ⟨h1, h2, h3, h4, h5, h6⟩
    obtain ⟨i1, i2⟩ := hx.2 ⟨h1, h2⟩
    obtain ⟨i3, i4⟩ := hy.2 ⟨h3, h4⟩
    obtain ⟨i5, i6⟩ := hz.2 ⟨h5, h6⟩
    exact ⟨i1, i2, i3, i4, i5, i6⟩

theorem unit_le {d e : Vec3} (he : UnitAlong d e) : |e.x| ≤ 1 ∧ |e.y| ≤ 1 ∧ |e.z| ≤ 1 := by
  have := he.1
  refine ⟨?_, ?_, ?_⟩ <;> refine abs_le_of_sq_le_sq ?_ (by norm_num) <;>
    linarith [sq_nonneg e.x, sq_nonneg e.y, sq_nonneg e.z]

/-- Everything about the query of a ray with an oblique direction. -/
theorem ray_main (h : RelErr u rnd) (hm : Monotone rnd) (hF : RelErr v toF) (hmF : Monotone toF) (hu : u ≤ 1 / 1000)
    (hv : v ≤ 1 / 1000) {lo hi o d e : Vec3} (hp : Proper lo hi) (he : UnitAlong d e)
    (hob : 1e-9 * (1 + 8 * u) ≤ |e.x| ∧ 1e-9 * (1 + 8 * u) ≤ |e.y| ∧ 1e-9 * (1 + 8 * u) ≤ |e.z|) (t0 t1 d0 : ℝ) (ht : t0 < t1) :
    let r := boxRay rnd toF (Box.new lo hi) (rayNew rnd o d) t0 t1 d0
    let w := 8 * u + 2 * v
    (r.1 = true → ∃ s m, t0 < s ∧ s < t1 ∧ m = w * |s| ∧
      InBox ⟨lo.x - m, lo.y - m, lo.z - m⟩ ⟨hi.x + m, hi.y + m, hi.z + m⟩ (along o e s)) ∧
    (∀ s m, t0 < s → s < t1 → m = w * |s| →
      InBox ⟨lo.x + m, lo.y + m, lo.z + m⟩ ⟨hi.x - m, hi.y - m, hi.z - m⟩ (along o e s) → r.1 = true) ∧
    (r.1 = true → ∀ a, IsLeast {s | InBox lo hi (along o e s)} a → |r.2 - a| ≤ w * |a|) := by
  have hu0 := relErr_nonneg h
  have hv0 := relErr_nonneg hF
  intro r w
  obtain ⟨nx, ny, nz⟩ := normalized_err h hu he
  obtain ⟨px, py, pz⟩ := hp
  obtain ⟨ox, oy, oz⟩ := hob
  obtain ⟨x0, x1, x2, x3⟩ := axis_err h hm hF hmF hu (o := o.x) px nx ox
  obtain ⟨y0, y1, y2, y3⟩ := axis_err h hm hF hmF hu (o := o.y) py ny oy
  obtain ⟨z0, z1, z2, z3⟩ := axis_err h hm hF hmF hu (o := o.z) pz nz oz
  have hr := boxRay_eq (rnd := rnd) (toF := toF) (Box.new lo hi) o d t0 t1 d0
  rw [Box.new_lo, Box.new_hi] at hr
  obtain ⟨S1, S2⟩ := slabs x1 y1 z1 ht r hr
  have ux := unit_le he
  obtain ⟨q, hq⟩ : ∃ q, q = 7 * u + 1.1 * v := ⟨_, rfl⟩
  have hq0 : 0 ≤ q := by rw [hq]; positivity
  have hq1 : q ≤ 1 / 100 := by rw [hq]; linarith
  have hqw : 1.02 * q ≤ w := by simp only [w]; rw [hq]; linarith
  rw [← hq] at x2 x3 y2 y3 z2 z3
  have mem : ∀ {lo hi o e L' H' s : ℝ}, lo ≤ hi → 1e-9 ≤ |e| → |e| ≤ 1 → |L' - slabLo lo hi o e| ≤ q * |slabLo lo hi o e| →
      |H' - slabHi lo hi o e| ≤ q * |slabHi lo hi o e| → L' ≤ s → s ≤ H' →
      lo - w * |s| ≤ o + s * e ∧ o + s * e ≤ hi + w * |s| := by
    intro lo hi o e L' H' s hp he he1 hL hH h1 h2
    obtain ⟨r, r1, r2, r3⟩ := near_param hq0 hq1 (slab_le hp) hL hH h1 h2
    obtain ⟨i1, i2⟩ := (slab_mem he).1 ⟨r1, r2⟩
    have e1 : o + s * e = o + r * e + (s - r) * e := by ring
    have : |(s - r) * e| ≤ w * |s| := by
      rw [abs_mul]
      calc |s - r| * |e| ≤ |s - r| * 1 := by gcongr
        _ ≤ 1.02 * q * |s| := by rw [mul_one]; exact r3
        _ ≤ w * |s| := by gcongr
    rw [abs_le] at this
    rw [e1]
    constructor <;> linarith
  have inn : ∀ {lo hi o e L' H' s m : ℝ}, 1e-9 ≤ |e| → |e| ≤ 1 → |L' - slabLo lo hi o e| ≤ q * |slabLo lo hi o e| →
      |H' - slabHi lo hi o e| ≤ q * |slabHi lo hi o e| → m = w * |s| → lo + m ≤ o + s * e → o + s * e ≤ hi - m →
      L' ≤ s ∧ s ≤ H' := by
    intro lo hi o e L' H' s m he he1 hL hH hm h1 h2
    have hm0 : 0 ≤ m := by rw [hm]; positivity
    have hme : |m * e| ≤ m := by
      rw [abs_mul, abs_of_nonneg hm0]
      exact mul_le_of_le_one_right hm0 he1
    rw [abs_le] at hme
    have a := (slab_mem (lo := lo) (hi := hi) (o := o) (t := s - m) he).2 (by rw [sub_mul]; constructor <;> linarith)
    have b := (slab_mem (lo := lo) (hi := hi) (o := o) (t := s + m) he).2 (by rw [add_mul]; constructor <;> linarith)
    have : 1.02 * q * |s| ≤ m := by rw [hm]; gcongr
    exact inner_param hq0 hq1 hL hH (by linarith [a.1]) (by linarith [b.2])
  refine ⟨?_, ?_, ?_⟩
  · intro hflag
    obtain ⟨s, s1, s2, a1, a2, b1, b2, c1, c2⟩ := S1.1 hflag
    obtain ⟨i1, i2⟩ := mem px x0 ux.1 x2 x3 a1 a2
    obtain ⟨i3, i4⟩ := mem py y0 ux.2.1 y2 y3 b1 b2
    obtain ⟨i5, i6⟩ := mem pz z0 ux.2.2 z2 z3 c1 c2
    exact ⟨s, _, s1, s2, rfl, i1, i2, i3, i4, i5, i6⟩
  · intro s m s1 s2 hm' ⟨i1, i2, i3, i4, i5, i6⟩
    obtain ⟨a1, a2⟩ := inn x0 ux.1 x2 x3 hm' i1 i2
    obtain ⟨b1, b2⟩ := inn y0 ux.2.1 y2 y3 hm' i3 i4
    obtain ⟨c1, c2⟩ := inn z0 ux.2.2 z2 z3 hm' i5 i6
    exact S1.2 ⟨s, s1, s2, a1, a2, b1, b2, c1, c2⟩
  · intro hflag a ha
    have hR := least_max (S2 hflag)
    have hA := entry_max x0 y0 z0 ha
    have K : |r.2 - a| ≤ q * |a| := by
      rw [hR, hA]
      exact max_err hq0 hq1 z2 (max_err hq0 hq1 y2 x2)
    exact K.trans (mul_le_mul_of_nonneg_right (by linarith) (abs_nonneg _))

end Geo.RoundedBox
