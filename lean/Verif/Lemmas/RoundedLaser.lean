import Verif.Lemmas.LaserRangeFinderMesh
import Verif.Lemmas.Rounded
import Verif.Spec.RoundedLaser
import Mathlib.Analysis.SpecialFunctions.Trigonometric.Bounds

/-!
# The laser range finder in floating point arithmetic: tables and indices
-/

namespace Geo
open Spec

namespace RoundedLRF

variable {u v : ℝ} {F : FloatLib}

theorem rel_zero {rnd : ℝ → ℝ} (h : RelErr u rnd) : rnd 0 = 0 := by simpa using h 0

/-- A rounding keeps the sign. -/
theorem rel_pos {rnd : ℝ → ℝ} (h : RelErr u rnd) (hu : u ≤ 1 / 1000) {x : ℝ} : 0 < rnd x ↔ 0 < x := by
  have h1 := abs_le.1 (h x)
  constructor
  · intro hx
    by_contra hn
    rw [abs_of_nonpos (not_lt.1 hn)] at h1
    nlinarith [not_lt.1 hn]
  · intro hx
    rw [abs_of_pos hx] at h1
    nlinarith

/-- A quotient of two numbers known up to rounding. -/
theorem div_err (hu0 : 0 ≤ u) (hu : u ≤ 1 / 1000) {a b x y c : ℝ} (hy : 0 < y) (hc : 0 ≤ c) (ha : |a - x| ≤ c * u * |x|)
    (hb : |b - y| ≤ 2.04 * u * y) : 0 < b ∧ |a / b - x / y| ≤ (1.01 * c + 2.06) * u * |x / y| := by
  have hb1 : 0.997 * y ≤ b := by
    have := (abs_le.1 hb).1
    nlinarith
  have hb0 : 0 < b := by linarith
  refine ⟨hb0, ?_⟩
  have e : a / b - x / y = (a - x) / b - x / y * ((b - y) / b) := by
    field_simp
    ring
  have h1 : |(a - x) / b| ≤ 1.01 * c * u * |x / y| := by
    rw [abs_div, abs_div, abs_of_pos hb0, abs_of_pos hy, div_le_iff₀ hb0]
    have : c * u * |x| = c * u * (|x| / y) * y := by field_simp
    rw [this] at ha
    refine ha.trans ?_
    have := mul_le_mul_of_nonneg_left hb1 (show 0 ≤ 1.01 * c * u * (|x| / y) by positivity)
    refine le_trans ?_ this
    have := mul_nonneg (mul_nonneg (mul_nonneg hc hu0) (show 0 ≤ |x| / y by positivity)) hy.le
    linarith
  have h2 : |(b - y) / b| ≤ 2.05 * u := by
    rw [abs_div, abs_of_pos hb0, div_le_iff₀ hb0]
    refine hb.trans ?_
    have := mul_le_mul_of_nonneg_left hb1 hu0
    have := mul_nonneg hu0 hy.le
    linarith
  rw [e]
  have h3 := abs_sub ((a - x) / b) (x / y * ((b - y) / b))
  rw [abs_mul] at h3
  have h4 := mul_le_mul_of_nonneg_left h2 (abs_nonneg (x / y))
  have h5 := mul_nonneg hu0 (abs_nonneg (x / y))
  linarith

theorem relErr_nonneg' {rnd : ℝ → ℝ} (h : RelErr u rnd) : 0 ≤ u := by
  have := (abs_nonneg _).trans (h 1)
  simpa using this

theorem one_err {rnd : ℝ → ℝ} (h : RelErr u rnd) (hu : u ≤ 1 / 1000) (x : ℝ) : |rnd x - x| ≤ 1.02 * u * |x| := by
  have := Rounded.step h (relErr_nonneg' h) hu (k := 0) (x := x) (y := x) (by norm_num) le_rfl (by simp)
  linarith

/-! ## The tables -/

/-- The increment. -/
theorem incr_err (h : RelErr u F.rnd) (hu : u ≤ 1 / 1000) {x N : ℝ} (hN : 0 < N) :
    |F.rnd (F.rnd x / N) - x / N| ≤ 2.04 * u * |x / N| := by
  have h1 : |F.rnd x / N - x / N| ≤ 1.02 * u * |x / N| := by
    rw [← sub_div, abs_div, abs_div, abs_of_pos hN, ← mul_div_assoc]
    exact div_le_div_of_nonneg_right (one_err h hu x) hN.le
  have := Rounded.step h (relErr_nonneg' h) hu (by norm_num) le_rfl h1
  linarith

theorem beamAngles_length (incr : ℝ) : ∀ (n : ℕ) (a : ℝ), (beamAngles F incr n a).length = n
  | 0, _ => rfl
  | n + 1, a => by simp [beamAngles, beamAngles_length incr n]

/-- The sums of the loop, starting from an angle `a` that is off by what `k` steps have cost. -/
theorem beamAngles_err (h : RelErr u F.rnd) (hu : u ≤ 1 / 1000) {incr w R a0 : ℝ} {m : ℕ} (hw : 0 ≤ w) (hR : w ≤ 2 * R)
    (hi : |incr - w| ≤ 2.04 * u * w) (hm : m * u ≤ 1 / 1000) (hA : ∀ i : ℕ, i < m → |a0 + i * w| ≤ R) :
    ∀ (n k : ℕ) (a : ℝ), k + n ≤ m → |a - (a0 + k * w)| ≤ k * (u * (1.1 * R + 2.1 * w)) → ∀ i < n,
      ∃ b, (beamAngles F incr n a)[i]? = some b ∧ |b - (a0 + (k + i : ℕ) * w)| ≤ (k + i : ℕ) * (u * (1.1 * R + 2.1 * w))
  | 0, _, _, _, _, _, hi => absurd hi (by omega)
  | n + 1, k, a, hk, ha, 0, _ => ⟨a, by simp [beamAngles], by simpa using ha⟩
  | n + 1, k, a, hk, ha, i + 1, hin => by
    have hu0 := relErr_nonneg' h
    have hR0 : 0 ≤ R := by linarith
    simp only [beamAngles, List.getElem?_cons_succ]
    have hstep : |F.rnd (a + incr) - (a0 + (k + 1 : ℕ) * w)| ≤ (k + 1 : ℕ) * (u * (1.1 * R + 2.1 * w)) := by
      have hAk := hA (k + 1) (by omega)
      have g1 : |a + incr - (a0 + (k + 1 : ℕ) * w)| ≤ k * (u * (1.1 * R + 2.1 * w)) + 2.04 * u * w := by
        have e : a + incr - (a0 + (k + 1 : ℕ) * w) = (a - (a0 + k * w)) + (incr - w) := by push_cast; ring
        rw [e]
        exact (abs_add_le _ _).trans (add_le_add ha hi)
      have g2 : |F.rnd (a + incr) - (a0 + (k + 1 : ℕ) * w)| ≤ |F.rnd (a + incr) - (a + incr)| + |a + incr - (a0 + (k + 1 : ℕ) * w)| :=
        abs_sub_le _ _ _
      have g3 := h (a + incr)
      have g4 : |a + incr| ≤ R + (k * (u * (1.1 * R + 2.1 * w)) + 2.04 * u * w) := by
        have : |a + incr| ≤ |a0 + (k + 1 : ℕ) * w| + |a + incr - (a0 + (k + 1 : ℕ) * w)| := by
          have := abs_add_le (a0 + (k + 1 : ℕ) * w) (a + incr - (a0 + (k + 1 : ℕ) * w))
          rwa [add_sub_cancel] at this
        linarith
      have g5 : k * (u * (1.1 * R + 2.1 * w)) ≤ 1 / 1000 * (1.1 * R + 2.1 * w) := by
        rw [← mul_assoc]
        refine mul_le_mul_of_nonneg_right (le_trans ?_ hm) (by linarith)
        exact mul_le_mul_of_nonneg_right (by exact_mod_cast (by omega : k ≤ m)) hu0
      have g6 : 2.04 * u * w ≤ 2.04 * (1 / 1000) * w := mul_le_mul_of_nonneg_right (by linarith) hw
      have g7 : u * |a + incr| ≤ u * (1.1 * R) := mul_le_mul_of_nonneg_left (by linarith) hu0
      have g8 := mul_nonneg hu0 hw
      push_cast at *
      nlinarith
    obtain ⟨b, b1, b2⟩ := beamAngles_err h hu hw hR hi hm hA n (k + 1) (F.rnd (a + incr)) (by omega) hstep i (by omega)
    refine ⟨b, b1, ?_⟩
    rw [show k + (i + 1) = k + 1 + i by omega]
    exact b2

/-- The facts about a sensor that the setters maintain. -/
def Inv (F : FloatLib) (l : LRF) : Prop :=
  0 < l.numBeams → l.aMin < l.aMax →
    l.angleIncr = F.rnd (F.rnd (l.aMax - l.aMin) / (max (l.numBeams - 1) 1 : ℕ)) ∧
    l.angles = beamAngles F l.angleIncr l.numBeams l.aMin ∧ l.rayDirs = l.angles.map (fun a => polarTo2D F a 1) ∧
    castUInt (F.rnd (F.pi / l.angleIncr)) = .ok l.iHalfCircle

theorem calculateRays_inv {l l' : LRF} (h : calculateRays F l = .ok l') :
    l'.aMin = l.aMin ∧ l'.aMax = l.aMax ∧ l'.numBeams = l.numBeams ∧ l'.rangeMin = l.rangeMin ∧
      l'.rangeMax = l.rangeMax ∧ Inv F l' := by
  unfold calculateRays at h
  cases hc : castUInt (F.rnd (F.pi / F.rnd (F.rnd (l.aMax - l.aMin) / (max (l.numBeams - 1) 1 : ℕ)))) with
  | error e => simp only [hc, bind, Except.bind] at h; cases h
  | ok half =>
    simp only [hc, bind, Except.bind, pure, Except.pure, Except.ok.injEq] at h
    subst h
    exact ⟨rfl, rfl, rfl, rfl, rfl, fun _ _ => ⟨rfl, rfl, rfl, hc⟩⟩

theorem step_inv (hr : RelErr u F.rnd) (hu : u ≤ 1 / 1000) {l l' : LRF} {o : LRF.Op} (hi : Inv F l) (h : step F l o = .ok l') :
    Inv F l' ∧
    (l'.aMin, l'.aMax) = (match o with | .angleLimits a b => (a, b) | _ => (l.aMin, l.aMax)) ∧
    (l'.rangeMin, l'.rangeMax) = (match o with | .rangeLimits a b => (a, b) | _ => (l.rangeMin, l.rangeMax)) ∧
    l'.numBeams = (match o with | .numBeams n => n | _ => l.numBeams) := by
  cases o with
  | rangeLimits a b =>
    simp only [step, LRF.setRangeLimits, Except.ok.injEq] at h
    subst h
    exact ⟨hi, rfl, rfl, rfl⟩
  | angleLimits a b =>
    simp only [step, setAngleLimits] at h
    split_ifs at h with c
    · obtain ⟨h1, h2, h3, h4, h5, h6⟩ := calculateRays_inv h
      exact ⟨h6, by rw [h1, h2], by rw [h4, h5], h3⟩
    · simp only [Except.ok.injEq] at h
      subst h
      refine ⟨fun c1 c2 => absurd ⟨c1, (rel_pos hr hu).2 (sub_pos.2 c2)⟩ c, rfl, rfl, rfl⟩
  | numBeams n =>
    simp only [step, setNumBeams] at h
    split_ifs at h with c
    · obtain ⟨h1, h2, h3, h4, h5, h6⟩ := calculateRays_inv h
      exact ⟨h6, by rw [h1, h2], by rw [h4, h5], h3⟩
    · simp only [Except.ok.injEq] at h
      subst h
      refine ⟨fun c1 c2 => absurd ⟨c1, (rel_pos hr hu).2 (sub_pos.2 c2)⟩ c, rfl, rfl, rfl⟩

theorem run_inv (hr : RelErr u F.rnd) (hu : u ≤ 1 / 1000) : ∀ (ops : List LRF.Op) (l l' : LRF), Inv F l → run F l ops = .ok l' →
    Inv F l' ∧
    (l'.aMin, l'.aMax) = ops.foldl (fun c o => match o with | .angleLimits a b => (a, b) | _ => c) (l.aMin, l.aMax) ∧
    (l'.rangeMin, l'.rangeMax) =
      ops.foldl (fun c o => match o with | .rangeLimits a b => (a, b) | _ => c) (l.rangeMin, l.rangeMax) ∧
    l'.numBeams = ops.foldl (fun c o => match o with | .numBeams n => n | _ => c) l.numBeams
  | [], l, l', hi, h => by
    simp only [run, Except.ok.injEq] at h
    subst h
    exact ⟨hi, rfl, rfl, rfl⟩
  | o :: ops, l, l', hi, h => by
    simp only [run, bind, Except.bind] at h
    cases hs : step F l o with
    | error e => simp [hs] at h
    | ok m =>
      simp only [hs] at h
      obtain ⟨s1, s2, s3, s4⟩ := step_inv hr hu hi hs
      obtain ⟨r1, r2, r3, r4⟩ := run_inv hr hu ops m l' s1 h
      refine ⟨r1, ?_, ?_, ?_⟩
      · rw [r2, s2, List.foldl_cons]; cases o <;> rfl
      · rw [r3, s3, List.foldl_cons]; cases o <;> rfl
      · rw [r4, s4, List.foldl_cons]; cases o <;> rfl

theorem inv_new : Inv F LRF.new := fun h => absurd h (by simp [LRF.new])

theorem spacing_pos {l : LRF} (h : l.aMin < l.aMax) : 0 < spacing l := by
  unfold spacing
  apply div_pos (sub_pos.2 h)
  exact_mod_cast (by omega : 0 < max (l.numBeams - 1) 1)

/-- The steps of the beams but the last fill the limits. -/
theorem steps_le {l : LRF} (h : l.aMin < l.aMax) {i : ℕ} (hi : i < l.numBeams) : i * spacing l ≤ l.aMax - l.aMin := by
  have hN : (0 : ℝ) < (max (l.numBeams - 1) 1 : ℕ) := by exact_mod_cast (by omega : 0 < max (l.numBeams - 1) 1)
  unfold spacing
  rw [← mul_div_assoc, div_le_iff₀ hN, mul_comm]
  refine mul_le_mul_of_nonneg_left ?_ (sub_nonneg.2 h.le)
  exact_mod_cast (by omega : i ≤ max (l.numBeams - 1) 1)

/-- The tables of a configured sensor. -/
theorem tables (hF : Accurate u v F) (hu : u ≤ 1 / 1000) {l : LRF} (hi : Inv F l) (hn : 0 < l.numBeams) (hl : l.aMin < l.aMax)
    (hm : l.numBeams * u ≤ 1 / 1000) :
    l.angles.length = l.numBeams ∧ l.rayDirs.length = l.numBeams ∧ |l.angleIncr - spacing l| ≤ 2.04 * u * spacing l ∧
    ∀ i < l.numBeams, ∃ a d, l.angles[i]? = some a ∧ l.rayDirs[i]? = some d ∧
      |a - beamAngle l.aMin l.aMax l.numBeams i| ≤ beamErr u l.aMin l.aMax i ∧
      |d.x - Real.cos (beamAngle l.aMin l.aMax l.numBeams i)| ≤ dirErr u l.aMin l.aMax i ∧
      |d.y - Real.sin (beamAngle l.aMin l.aMax l.numBeams i)| ≤ dirErr u l.aMin l.aMax i ∧ d.z = 0 := by
  have hu0 := relErr_nonneg' hF.rnd
  obtain ⟨e1, e2, e3, -⟩ := hi hn hl
  have hs := spacing_pos hl
  have hN : (0 : ℝ) < (max (l.numBeams - 1) 1 : ℕ) := by exact_mod_cast (by omega : 0 < max (l.numBeams - 1) 1)
  have hincr : |l.angleIncr - spacing l| ≤ 2.04 * u * spacing l := by
    rw [e1]
    have := incr_err (F := F) hF.rnd hu (x := l.aMax - l.aMin) hN
    rw [show (l.aMax - l.aMin) / ((max (l.numBeams - 1) 1 : ℕ) : ℝ) = spacing l from rfl, abs_of_pos hs] at this
    exact this
  have la : l.angles.length = l.numBeams := by rw [e2, beamAngles_length]
  refine ⟨la, by rw [e3, List.length_map, la], hincr, fun i hin => ?_⟩
  obtain ⟨R, hR⟩ : ∃ R, R = max |l.aMin| |l.aMax| := ⟨_, rfl⟩
  have R1 : |l.aMin| ≤ R := by rw [hR]; exact le_max_left _ _
  have R2 : |l.aMax| ≤ R := by rw [hR]; exact le_max_right _ _
  have D : l.aMax - l.aMin ≤ 2 * R := by
    have := (abs_le.1 R1).1
    have := (abs_le.1 R2).2
    linarith
  have wR : spacing l ≤ 2 * R := by
    refine le_trans ?_ D
    unfold spacing
    exact div_le_self (sub_nonneg.2 hl.le) (by exact_mod_cast (by omega : 1 ≤ max (l.numBeams - 1) 1))
  have hA : ∀ i : ℕ, i < l.numBeams → |l.aMin + i * spacing l| ≤ R := by
    intro i hi
    have h1 := steps_le hl hi
    have h2 : 0 ≤ (i : ℝ) * spacing l := by positivity
    have := (abs_le.1 R1).1
    have := (abs_le.1 R2).2
    rw [abs_le]
    constructor <;> linarith
  obtain ⟨a, a1, a2⟩ := beamAngles_err hF.rnd hu hs.le wR hincr hm hA l.numBeams 0 l.aMin (by omega) (by simp) i hin
  rw [Nat.zero_add] at a2
  have ha : |a - beamAngle l.aMin l.aMax l.numBeams i| ≤ beamErr u l.aMin l.aMax i := by
    refine a2.trans ?_
    unfold beamErr
    rw [← hR]
    have h1 := steps_le hl hin
    have h2 : u * (i * spacing l) ≤ u * (2 * R) := mul_le_mul_of_nonneg_left (h1.trans D) hu0
    have h3 : 0 ≤ u * (i * R) := mul_nonneg hu0 (mul_nonneg (Nat.cast_nonneg _) ((abs_nonneg _).trans R1))
    have h4 : 0 ≤ u * R := mul_nonneg hu0 ((abs_nonneg _).trans R1)
    nlinarith
  rw [← e2] at a1
  refine ⟨a, polarTo2D F a 1, a1, by rw [e3, List.getElem?_map, a1]; rfl, ha, ?_, ?_, ?_⟩
  · have h1 := hF.cos a
    have h2 := Real.abs_cos_sub_cos_le a (beamAngle l.aMin l.aMax l.numBeams i)
    have h3 := hF.rnd (F.cos a * 1)
    have h4 : |F.cos a| ≤ 1.01 := by
      have := abs_le.1 h1
      have := Real.cos_le_one a
      have := Real.neg_one_le_cos a
      rw [abs_le]; constructor <;> linarith
    rw [mul_one] at h3
    have h5 := mul_le_mul_of_nonneg_left h4 hu0
    show |F.rnd (F.cos a * 1) - _| ≤ _
    rw [mul_one]
    have t1 := abs_sub_le (F.rnd (F.cos a)) (F.cos a) (Real.cos (beamAngle l.aMin l.aMax l.numBeams i))
    have t2 := abs_sub_le (F.cos a) (Real.cos a) (Real.cos (beamAngle l.aMin l.aMax l.numBeams i))
    unfold dirErr
    linarith
  · have h1 := hF.sin a
    have h2 := Real.abs_sin_sub_sin_le a (beamAngle l.aMin l.aMax l.numBeams i)
    have h3 := hF.rnd (F.sin a * 1)
    have h4 : |F.sin a| ≤ 1.01 := by
      have := abs_le.1 h1
      have := Real.sin_le_one a
      have := Real.neg_one_le_sin a
      rw [abs_le]; constructor <;> linarith
    rw [mul_one] at h3
    have h5 := mul_le_mul_of_nonneg_left h4 hu0
    show |F.rnd (F.sin a * 1) - _| ≤ _
    rw [mul_one]
    have t1 := abs_sub_le (F.rnd (F.sin a)) (F.sin a) (Real.sin (beamAngle l.aMin l.aMax l.numBeams i))
    have t2 := abs_sub_le (F.sin a) (Real.sin a) (Real.sin (beamAngle l.aMin l.aMax l.numBeams i))
    unfold dirErr
    linarith
  · show F.rnd (0 * 1) = 0
    rw [zero_mul, rel_zero hF.rnd]

end RoundedLRF

end Geo
