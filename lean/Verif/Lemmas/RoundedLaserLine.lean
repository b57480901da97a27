import Verif.Lemmas.RoundedLaser
import Mathlib.Analysis.Real.Pi.Bounds

/-!
# The laser range finder in floating point arithmetic: indices and lines
-/

namespace Geo
open Spec

namespace RoundedLRF

variable {u v : ℝ} {F : FloatLib}

theorem _root_.Geo.Spec.RoundedFine.inv (hF : Accurate u v F) (hu : u ≤ 1 / 1000) {l : LRF} (h : RoundedFine u F l) : Inv F l := by
  obtain ⟨ops, hr⟩ := h.setters
  exact (run_inv hF.rnd hu ops _ _ inv_new hr).1

/-- Truncation, as bounds. -/
theorem trunc_bounds (x : ℝ) : (0 ≤ x → 0 ≤ trunc x ∧ (trunc x : ℝ) ≤ x ∧ x < trunc x + 1) ∧
    (x < 0 → trunc x ≤ 0 ∧ x ≤ trunc x ∧ (trunc x : ℝ) < x + 1) := by
  unfold trunc
  constructor
  · intro h
    rw [if_pos h]
    exact ⟨Int.floor_nonneg.2 h, Int.floor_le x, Int.lt_floor_add_one x⟩
  · intro h
    rw [if_neg (not_le.2 h)]
    exact ⟨Int.ceil_le.2 (by simpa using h.le), Int.le_ceil x, Int.ceil_lt_add_one x⟩

/-- The index of an angle, by way of a quotient that is nearly the exact one. -/
theorem index_ok (hF : Accurate u v F) (hu : u ≤ 1 / 1000) {l : LRF} (h : RoundedFine u F l) {a : ℝ} (ha : |a| ≤ 3.2) :
    ∃ (k : ℤ) (q : ℝ), getAngleUpperIndexRaw F l a = .ok k ∧
      |q - (a - l.aMin) / spacing l| ≤ 4.2 * u * |(a - l.aMin) / spacing l| ∧
      (0 ≤ q → 1 ≤ k ∧ (k : ℝ) - 1 ≤ q ∧ q < k) ∧ (q < 0 → k ≤ 1 ∧ q ≤ k - 1 ∧ (k : ℝ) - 1 < q + 1) := by
  have hu0 := relErr_nonneg' hF.rnd
  have hs := spacing_pos h.order
  obtain ⟨-, -, t3, -⟩ := tables hF hu (h.inv hF hu) h.beams h.order h.few
  obtain ⟨p0, p1⟩ := div_err hu0 hu hs (by norm_num) (one_err hF.rnd hu (a - l.aMin)) t3
  have p2 := Rounded.step hF.rnd hu0 hu (by norm_num) le_rfl p1
  obtain ⟨q, hq⟩ : ∃ q, q = F.rnd (F.rnd (a - l.aMin) / l.angleIncr) := ⟨_, rfl⟩
  rw [← hq] at p2
  have hq2 : |q - (a - l.aMin) / spacing l| ≤ 4.2 * u * |(a - l.aMin) / spacing l| := by
    have := mul_nonneg hu0 (abs_nonneg ((a - l.aMin) / spacing l))
    linarith
  have hlo := h.lo
  have hhi := h.hi
  have hor := h.order
  have hst := h.steps
  have hq3 : |q| * spacing l ≤ 7.3 := by
    have e1 : |(a - l.aMin) / spacing l| * spacing l = |a - l.aMin| := by
      rw [abs_div, abs_of_pos hs, div_mul_cancel₀ _ hs.ne']
    have e2 : |a - l.aMin| ≤ 7.2 := by
      have := abs_le.1 ha
      rw [abs_le]; constructor <;> linarith
    have e3 : |q| ≤ |(a - l.aMin) / spacing l| + |q - (a - l.aMin) / spacing l| := by
      have := abs_add_le ((a - l.aMin) / spacing l) (q - (a - l.aMin) / spacing l)
      rwa [add_sub_cancel] at this
    have e4 : 4.2 * u * |(a - l.aMin) / spacing l| ≤ 4.2 * (1 / 1000) * |(a - l.aMin) / spacing l| :=
      mul_le_mul_of_nonneg_right (by linarith) (abs_nonneg _)
    have e5 : |q| ≤ 1.0042 * |(a - l.aMin) / spacing l| := by linarith
    have e6 := mul_le_mul_of_nonneg_right e5 hs.le
    linarith
  have hq4 : |q| < 2 ^ 31 - 3 := by
    by_contra hn
    have := mul_le_mul_of_nonneg_right (not_lt.1 hn) hs.le
    linarith
  obtain ⟨b1, b2⟩ := abs_lt.1 hq4
  obtain ⟨T1, T2⟩ := trunc_bounds q
  have r1 : -(2 ^ 31 - 3) < trunc q := by
    rcases le_or_gt 0 q with c | c
    · have := (T1 c).1
      omega
    · have : ((-(2 ^ 31 - 3) : ℤ) : ℝ) < trunc q := by
        push_cast
        linarith [(T2 c).2.1]
      exact_mod_cast this
  have r2 : trunc q < 2 ^ 31 - 3 := by
    rcases le_or_gt 0 q with c | c
    · have : (trunc q : ℝ) < ((2 ^ 31 - 3 : ℤ) : ℝ) := by
        push_cast
        linarith [(T1 c).2.1]
      exact_mod_cast this
    · have := (T2 c).1
      omega
  have hne : l.angleIncr ≠ 0 := p0.ne'
  refine ⟨trunc q + 1, q, ?_, hq2, fun c => ?_, fun c => ?_⟩
  · unfold getAngleUpperIndexRaw castInt intOp
    rw [if_neg hne, ← hq]
    simp only [bind, Except.bind]
    rw [if_pos ⟨by omega, by omega⟩]
    simp only
    rw [if_pos ⟨by omega, by omega⟩]
  · obtain ⟨x1, x2, x3⟩ := T1 c
    push_cast
    exact ⟨by omega, by linarith, by linarith⟩
  · obtain ⟨x1, x2, x3⟩ := T2 c
    push_cast
    exact ⟨by omega, by linarith, by linarith⟩

/-- The number of steps in half a turn. -/
theorem half_ok (hF : Accurate u v F) (hu : u ≤ 1 / 1000) {l : LRF} (h : RoundedFine u F l) :
    toInt32 l.iHalfCircle = l.iHalfCircle ∧ Real.pi / spacing l * (1 - 6 * u) < l.iHalfCircle + 1 := by
  have hu0 := relErr_nonneg' hF.rnd
  have hs := spacing_pos h.order
  have hpi := Real.pi_pos
  have hpi2 := Real.pi_lt_d2
  obtain ⟨-, -, t3, -⟩ := tables hF hu (h.inv hF hu) h.beams h.order h.few
  obtain ⟨-, -, -, hc⟩ := h.inv hF hu h.beams h.order
  have hp := hF.pi
  rw [show 2 * u * Real.pi = 2 * u * |Real.pi| by rw [abs_of_pos hpi]] at hp
  obtain ⟨p0, p1⟩ := div_err hu0 hu hs (by norm_num) hp t3
  have p2 := Rounded.step hF.rnd hu0 hu (by norm_num) le_rfl p1
  obtain ⟨q, hq⟩ : ∃ q, q = F.rnd (F.pi / l.angleIncr) := ⟨_, rfl⟩
  rw [← hq] at p2 hc
  have hQ : 0 < Real.pi / spacing l := div_pos hpi hs
  rw [abs_of_pos hQ] at p2
  obtain ⟨g1, g2⟩ := abs_le.1 p2
  have hc2 : 0 ≤ trunc q ∧ trunc q < 2 ^ 32 ∧ l.iHalfCircle = (trunc q).toNat := by
    unfold castUInt at hc
    split_ifs at hc with c
    simp only [Except.ok.injEq] at hc
    exact ⟨c.1, c.2, hc.symm⟩
  obtain ⟨c1, c2, c3⟩ := hc2
  have hq0 : 0 ≤ q := by
    have := mul_nonneg hu0 hQ.le
    nlinarith
  obtain ⟨x1, x2, x3⟩ := (trunc_bounds q).1 hq0
  have hlt : trunc q < 2 ^ 31 := by
    have e1 : Real.pi / spacing l * spacing l = Real.pi := div_mul_cancel₀ _ hs.ne'
    have e2 : q ≤ 1.01 * (Real.pi / spacing l) := by nlinarith
    have e3 := mul_le_mul_of_nonneg_right e2 hs.le
    have hst := h.steps
    have : q < 2 ^ 31 - 3 := by
      by_contra hn
      have := mul_le_mul_of_nonneg_right (not_lt.1 hn) hs.le
      linarith
    have : (trunc q : ℝ) < ((2 ^ 31 : ℤ) : ℝ) := by push_cast; linarith
    exact_mod_cast this
  have hcast : ((l.iHalfCircle : ℕ) : ℤ) = trunc q := by omega
  refine ⟨?_, ?_⟩
  · unfold toInt32
    rw [if_pos (by omega)]
  · have : ((l.iHalfCircle : ℕ) : ℝ) = trunc q := by exact_mod_cast hcast
    rw [this]
    have := mul_nonneg hu0 hQ.le
    linarith

/-- The number of beams fits into `int`. -/
theorem beams_ok {l : LRF} (h : RoundedFine u F l) : toInt32 l.numBeams = l.numBeams := by
  have hs := spacing_pos h.order
  have h1 := steps_le h.order (i := l.numBeams - 1) (by have := h.beams; omega)
  have h2 := h.lo
  have h3 := h.hi
  have h4 := h.steps
  have h5 : ((l.numBeams - 1 : ℕ) : ℝ) ≤ ((2 ^ 31 - 3 : ℕ) : ℝ) := by
    by_contra hn
    have := mul_lt_mul_of_pos_right (not_le.1 hn) hs
    norm_num at this h4
    linarith
  have h6 : l.numBeams - 1 ≤ 2 ^ 31 - 3 := by exact_mod_cast h5
  unfold toInt32
  rw [if_pos (by omega)]

/-! ## Drawing -/

open Classical in
/-- The depth at which beam `j` is drawn, if any. -/
noncomputable def hit (F : FloatLib) (l : LRF) (p1 s : Vec2) (j : ℕ) : Option EReal :=
  match l.rayDirs[j]? with
  | none => none
  | some v => match depth F p1 s v.projectTo2d with
    | none => none
    | some d => if 0 < d then some (roundE F.toF d) else none

open Classical in
/-- The effect of drawing a part on a beam. -/
noncomputable def drawn (F : FloatLib) (l : LRF) (p1 s : Vec2) (a b j : ℕ) (r : EReal) : EReal :=
  if a ≤ j ∧ j < b then (match hit F l p1 s j with | none => r | some d => combine r d) else r

theorem drawPart_ok (l : LRF) (p1 s : Vec2) : ∀ (n i : ℕ) (ranges : List EReal), i + n ≤ l.rayDirs.length →
    i + n ≤ ranges.length → ∃ ranges', drawPart F l p1 s n i ranges = .ok ranges' ∧
      ranges'.length = ranges.length ∧ ∀ j, ranges'[j]? = (ranges[j]?).map (drawn F l p1 s i (i + n) j)
  | 0, i, ranges, _, _ => by
    refine ⟨ranges, rfl, rfl, fun j => ?_⟩
    have : drawn F l p1 s i (i + 0) j = id := by
      funext r
      unfold drawn
      rw [if_neg (by omega)]
      rfl
    rw [this, Option.map_id, id]
  | n + 1, i, ranges, h1, h2 => by
    have hv : vget l.rayDirs i = .ok l.rayDirs[i] := by
      unfold vget
      rw [List.getElem?_eq_getElem (by omega)]
    have key : ∀ (r1 : List EReal), r1.length = ranges.length →
        (∀ j, r1[j]? = (ranges[j]?).map fun r => if j = i then
          (match hit F l p1 s j with | none => r | some d => combine r d) else r) →
        drawPart F l p1 s (n + 1) i ranges = drawPart F l p1 s n (i + 1) r1 →
        ∃ ranges', drawPart F l p1 s (n + 1) i ranges = .ok ranges' ∧
          ranges'.length = ranges.length ∧ ∀ j, ranges'[j]? = (ranges[j]?).map (drawn F l p1 s i (i + (n + 1)) j) := by
      intro r1 hl hg he
      obtain ⟨r2, g1, g2, g3⟩ := drawPart_ok l p1 s n (i + 1) r1 (by omega) (by omega)
      refine ⟨r2, he.trans g1, g2.trans hl, fun j => ?_⟩
      rw [g3, hg, Option.map_map]
      congr 1
      funext r
      simp only [Function.comp, drawn]
      by_cases hj : j = i
      · subst hj
        rw [if_neg (by omega), if_pos rfl, if_pos ⟨le_rfl, by omega⟩]
      · rw [if_neg hj]
        by_cases hb : i + 1 ≤ j ∧ j < i + 1 + n
        · rw [if_pos hb, if_pos ⟨by omega, by omega⟩]
        · rw [if_neg hb, if_neg (by omega)]
    have same : ∀ (r : List EReal), (hit F l p1 s i = none) → ∀ j, r[j]? = (r[j]?).map fun x => if j = i then
          (match hit F l p1 s j with | none => x | some d => combine x d) else x := by
      intro r hn j
      have : (fun x : EReal => if j = i then
          (match hit F l p1 s j with | none => x | some d => combine x d) else x) = id := by
        funext x
        by_cases hj : j = i
        · subst hj; rw [if_pos rfl, hn]; rfl
        · rw [if_neg hj]; rfl
      rw [this, Option.map_id, id]
    have hh : ∀ q, depth F p1 s l.rayDirs[i].projectTo2d = q →
        hit F l p1 s i = (match q with | none => none | some d => if 0 < d then some (roundE F.toF d) else none) := by
      rintro q rfl
      unfold hit
      rw [List.getElem?_eq_getElem (by omega)]
    cases hq : depth F p1 s l.rayDirs[i].projectTo2d with
    | none =>
      replace hh := hh _ hq
      refine key ranges rfl (same ranges hh) ?_
      simp only [drawPart, hv, bind, Except.bind, hq]
    | some d =>
      replace hh := hh _ hq
      simp only at hh
      by_cases hd : 0 < d
      · rw [if_pos hd] at hh
        refine key (ranges.set i (combine ranges[i] (roundE F.toF d))) (by simp) (fun j => ?_) ?_
        · rw [List.getElem?_set]
          by_cases hj : i = j
          · subst hj
            rw [if_pos rfl, if_pos (by omega), List.getElem?_eq_getElem (by omega), hh]
            simp
          · rw [if_neg hj]
            have : (fun x : EReal => if j = i then
                (match hit F l p1 s j with | none => x | some d => combine x d) else x) = id := by
              funext x
              rw [if_neg (fun h => hj h.symm)]
              rfl
            rw [this, Option.map_id, id]
        · simp only [drawPart, hv, bind, Except.bind, hq]
          rw [if_pos hd, renderPoint_ok _ (by omega)]
      · rw [if_neg hd] at hh
        refine key ranges rfl (same ranges hh) ?_
        simp only [drawPart, hv, bind, Except.bind, hq]
        rw [if_neg hd]

theorem drawPart_range (l : LRF) (p1 s : Vec2) (a b : ℕ) (ranges : List EReal) (h1 : b ≤ l.rayDirs.length)
    (h2 : b ≤ ranges.length) : ∃ ranges', drawPart F l p1 s (b - a) a ranges = .ok ranges' ∧
      ranges'.length = ranges.length ∧ ∀ j, ranges'[j]? = (ranges[j]?).map (drawn F l p1 s a b j) := by
  by_cases hab : a ≤ b
  · have := drawPart_ok (F := F) l p1 s (b - a) a ranges (by omega) (by omega)
    rwa [show a + (b - a) = b by omega] at this
  · rw [show b - a = 0 by omega]
    refine ⟨ranges, rfl, rfl, fun j => ?_⟩
    have : drawn F l p1 s a b j = id := by
      funext r
      unfold drawn
      rw [if_neg (by omega)]
      rfl
    rw [this, Option.map_id, id]

/-- What a line can do to a range. -/
def Drawn (F : FloatLib) (l : LRF) (p1 s : Vec2) (j : ℕ) (old new : EReal) : Prop :=
  new = old ∨ (hit F l p1 s j = some new ∧ (old = 0 ∨ new < old))

theorem drawn_either (l : LRF) (p1 s : Vec2) (a b j : ℕ) (r : EReal) : Drawn F l p1 s j r (drawn F l p1 s a b j r) := by
  unfold drawn Drawn
  split_ifs
  · cases hh : hit F l p1 s j with
    | none => exact .inl rfl
    | some d =>
      simp only [combine]
      split_ifs with c
      · exact .inr ⟨rfl, c⟩
      · exact .inl rfl
  · exact .inl rfl

theorem Drawn.trans {l : LRF} {p1 s : Vec2} {j : ℕ} {a b c : EReal} (h1 : Drawn F l p1 s j a b) (h2 : Drawn F l p1 s j b c) :
    Drawn F l p1 s j a c := by
  rcases h2 with rfl | ⟨e2, q2⟩
  · exact h1
  · rcases h1 with rfl | ⟨e1, q1⟩
    · exact .inr ⟨e2, q2⟩
    · rw [e1, Option.some.injEq] at e2
      exact .inr ⟨by rw [e1, e2], by rw [← e2]; exact q1⟩

theorem roundE_coe (f : ℝ → ℝ) (x : ℝ) : roundE f x = (f x : ℝ) := by
  unfold roundE
  rw [if_neg (EReal.coe_ne_top x), if_neg (EReal.coe_ne_bot x), EReal.toReal_coe]

theorem roundE_top (f : ℝ → ℝ) : roundE f ⊤ = ⊤ := by simp [roundE]

theorem roundE_pos {f : ℝ → ℝ} {w : ℝ} (h : RelErr w f) (hw : w ≤ 1 / 1000) {d : EReal} (hd : 0 < d) : 0 < roundE f d := by
  induction d with
  | bot => simp at hd
  | top => rw [roundE_top]; exact hd
  | coe x =>
    rw [roundE_coe]
    exact_mod_cast (rel_pos h hw).2 (by exact_mod_cast hd)

/-- A depth that is drawn is positive. -/
theorem hit_pos (hF : Accurate u v F) (hv : v ≤ 1 / 1000) {l : LRF} {p1 s : Vec2} {j : ℕ} {d : EReal}
    (h : hit F l p1 s j = some d) : 0 < d := by
  unfold hit at h
  split at h
  · simp at h
  · split at h
    · simp at h
    · split_ifs at h with c
      simp only [Option.some.injEq] at h
      subst h
      exact roundE_pos hF.toF hv c

theorem Drawn.improves (hF : Accurate u v F) (hv : v ≤ 1 / 1000) {l : LRF} {p1 s : Vec2} {j : ℕ} {a b : EReal}
    (h : Drawn F l p1 s j a b) : Improves a b := by
  rcases h with rfl | ⟨e, q⟩
  · exact .inl rfl
  · exact .inr ⟨hit_pos hF hv e, q⟩

theorem abs_atan2 (hF : Accurate u v F) (hu : u ≤ 1 / 1000) (y x : ℝ) : |F.atan2 y x| ≤ 3.2 ∧
    |F.atan2 y x - atan2 y x| ≤ 6.3 * u := by
  have hu0 := relErr_nonneg' hF.rnd
  obtain ⟨m1, m2⟩ := atan2_mem y x
  have hp := Real.pi_lt_d2
  have h1 : |atan2 y x| ≤ 3.15 := by rw [abs_le]; constructor <;> linarith
  have h2 := hF.atan2 y x
  have h3 := mul_le_mul_of_nonneg_left h1 (show 0 ≤ 2 * u by linarith)
  have h4 : |F.atan2 y x - atan2 y x| ≤ 6.3 * u := by linarith
  refine ⟨?_, h4⟩
  have := abs_add_le (atan2 y x) (F.atan2 y x - atan2 y x)
  rw [add_sub_cancel] at this
  linarith

/-- The indices of two directions can be subtracted. -/
theorem sub_ok (hF : Accurate u v F) (hu : u ≤ 1 / 1000) {l : LRF} (h : RoundedFine u F l) {a b : ℝ} (ha : |a| ≤ 3.2)
    (hb : |b| ≤ 3.2) {k1 k2 : ℤ} (h1 : getAngleUpperIndexRaw F l a = .ok k1) (h2 : getAngleUpperIndexRaw F l b = .ok k2) :
    |k1 - k2| < 2 ^ 31 := by
  have hu0 := relErr_nonneg' hF.rnd
  have hs := spacing_pos h.order
  obtain ⟨m1, q1, e1, c1, f1, g1⟩ := index_ok hF hu h ha
  obtain ⟨m2, q2, e2, c2, f2, g2⟩ := index_ok hF hu h hb
  rw [h1, Except.ok.injEq] at e1
  rw [h2, Except.ok.injEq] at e2
  subst e1 e2
  have hlo := h.lo
  have hhi := h.hi
  have hor := h.order
  have B : ∀ x : ℝ, |x| ≤ 3.2 → |(x - l.aMin) / spacing l| * spacing l ≤ 7.2 := by
    intro x hx
    rw [abs_div, abs_of_pos hs, div_mul_cancel₀ _ hs.ne']
    have := abs_le.1 hx
    rw [abs_le]; constructor <;> linarith
  have hB1 := B a ha
  have hB2 := B b hb
  have e : (a - l.aMin) / spacing l - (b - l.aMin) / spacing l = (a - b) / spacing l := by rw [← sub_div]; congr 1; ring
  have hd : |(a - b) / spacing l| * spacing l ≤ 6.4 := by
    rw [abs_div, abs_of_pos hs, div_mul_cancel₀ _ hs.ne']
    have := abs_le.1 ha
    have := abs_le.1 hb
    rw [abs_le]; constructor <;> linarith
  have hq : |q1 - q2| ≤ |(a - b) / spacing l| + 0.0042 * |(a - l.aMin) / spacing l| + 0.0042 * |(b - l.aMin) / spacing l| := by
    have x1 : |q1 - (a - l.aMin) / spacing l| ≤ 0.0042 * |(a - l.aMin) / spacing l| :=
      c1.trans (mul_le_mul_of_nonneg_right (by linarith) (abs_nonneg _))
    have x2 : |q2 - (b - l.aMin) / spacing l| ≤ 0.0042 * |(b - l.aMin) / spacing l| :=
      c2.trans (mul_le_mul_of_nonneg_right (by linarith) (abs_nonneg _))
    have E : q1 - q2 = (a - b) / spacing l + (q1 - (a - l.aMin) / spacing l) - (q2 - (b - l.aMin) / spacing l) := by
      rw [← e]; ring
    have y1 := abs_sub ((a - b) / spacing l + (q1 - (a - l.aMin) / spacing l)) (q2 - (b - l.aMin) / spacing l)
    have y2 := abs_add_le ((a - b) / spacing l) (q1 - (a - l.aMin) / spacing l)
    rw [← E] at y1
    linarith
  have hq2 := mul_le_mul_of_nonneg_right hq hs.le
  have hst := h.steps
  have hq3 : |q1 - q2| < 2 ^ 31 - 3 := by
    by_contra hn
    have := mul_le_mul_of_nonneg_right (not_lt.1 hn) hs.le
    linarith
  obtain ⟨z1, z2⟩ := abs_lt.1 hq3
  have hk : |((k1 - k2 : ℤ) : ℝ)| < ((2 ^ 31 : ℤ) : ℝ) := by
    push_cast
    rw [abs_lt]
    rcases le_or_gt 0 q1 with d1 | d1 <;> rcases le_or_gt 0 q2 with d2 | d2 <;>
      [have w1 := f1 d1; have w1 := f1 d1; have w1 := g1 d1; have w1 := g1 d1] <;>
      [have w2 := f2 d2; have w2 := g2 d2; have w2 := f2 d2; have w2 := g2 d2] <;>
      constructor <;> linarith [w1.2.1, w1.2.2, w2.2.1, w2.2.2]
  exact_mod_cast hk

theorem parts_ok (hF : Accurate u v F) (hu : u ≤ 1 / 1000) {l : LRF} (h : RoundedFine u F l) (p1 p2 : Vec2) (res : RenderResult) :
    ∃ o, parts F l p1 p2 res = .ok o := by
  have m1 := (abs_atan2 hF hu p1.y p1.x).1
  have m2 := (abs_atan2 hF hu p2.y p2.x).1
  obtain ⟨k1, q1, e1, -⟩ := index_ok hF hu h m1
  obtain ⟨k2, q2, e2, -⟩ := index_ok hF hu h m2
  obtain ⟨g1, g2⟩ := abs_lt.1 (sub_ok hF hu h m1 m2 e1 e2)
  unfold parts getAngleUpperIndexRaw2
  have hi : intOp (max k1 k2 - min k1 k2) = .ok (max k1 k2 - min k1 k2) := by
    unfold intOp
    rw [if_pos ⟨by omega, by omega⟩]
  simp only [e1, e2, bind, Except.bind, hi]
  split_ifs <;> exact ⟨_, rfl⟩

theorem parts_le {l : LRF} {p1 p2 : Vec2} {res : RenderResult} {a1 b1 a2 b2 lo hi : ℕ}
    (h : parts F l p1 p2 res = .ok (some ((a1, b1), (a2, b2), (lo, hi)))) : b1 ≤ l.numBeams ∧ b2 ≤ l.numBeams := by
  unfold parts at h
  cases e1 : getAngleUpperIndexRaw2 F l p1.x p1.y with
  | error e => simp [e1, bind, Except.bind] at h
  | ok k1 =>
    cases e2 : getAngleUpperIndexRaw2 F l p2.x p2.y with
    | error e => simp [e1, e2, bind, Except.bind] at h
    | ok k2 =>
      cases e3 : intOp (max k1 k2 - min k1 k2) with
      | error e => simp [e1, e2, e3, bind, Except.bind] at h
      | ok k3 =>
        simp only [e1, e2, e3, bind, Except.bind, pure, Except.pure] at h
        split_ifs at h <;> simp at h <;> omega

/-- A line never leaves the tables, and what it writes are the depths of beams. -/
theorem renderLine_any (hF : Accurate u v F) (hu : u ≤ 1 / 1000) {l : LRF} (h : RoundedFine u F l) (p1 p2 : Vec2)
    (res : RenderResult) (hl : res.ranges.length = l.numBeams) :
    ∃ res', renderLine F l res p1 p2 = .ok res' ∧ res'.ranges.length = l.numBeams ∧
      ∀ (j : ℕ) old, res.ranges[j]? = some old →
        ∃ new, res'.ranges[j]? = some new ∧ Drawn F l p1 (sub F p2 p1) j old new := by
  have t := (tables hF hu (h.inv hF hu) h.beams h.order h.few).2.1
  have same : ∀ (j : ℕ) old, res.ranges[j]? = some old →
      ∃ new, res.ranges[j]? = some new ∧ Drawn F l p1 (sub F p2 p1) j old new := fun j old ho => ⟨old, ho, .inl rfl⟩
  unfold renderLine
  dsimp only
  split_ifs with c1 c2
  · exact ⟨_, rfl, hl, same⟩
  · exact ⟨_, rfl, hl, same⟩
  · obtain ⟨o, hp⟩ := parts_ok hF hu h p1 p2 res
    match o, hp with
    | none, hp =>
      simp only [hp, bind, Except.bind]
      exact ⟨_, rfl, hl, same⟩
    | some ((a1, b1), (a2, b2), (lo, hi)), hp =>
      obtain ⟨e1, e2⟩ := parts_le hp
      obtain ⟨r1, d1, d2, d3⟩ := drawPart_range (F := F) l p1 (sub F p2 p1) a1 b1 res.ranges (by omega) (by omega)
      obtain ⟨r2, f1, f2, f3⟩ := drawPart_range (F := F) l p1 (sub F p2 p1) a2 b2 r1 (by omega) (by omega)
      simp only [hp, bind, Except.bind, d1, f1]
      refine ⟨_, rfl, f2.trans (d2.trans hl), fun j old ho => ?_⟩
      exact ⟨_, by simp only [f3, d3, ho, Option.map_some],
        (drawn_either l p1 (sub F p2 p1) a1 b1 j old).trans (drawn_either l p1 (sub F p2 p1) a2 b2 j _)⟩

/-- Triangles never leave the tables and only improve ranges. -/
theorem renderTriangles_any (hF : Accurate u v F) (hu : u ≤ 1 / 1000) (hv : v ≤ 1 / 1000) {l : LRF} (h : RoundedFine u F l)
    (T : Transform3) (ps : List Vec3) : ∀ (ts : List TriI) (res : RenderResult),
    Valid ps ts → res.ranges.length = l.numBeams →
    ∃ res', renderTriangles F l T ps ts res = .ok res' ∧ res'.ranges.length = l.numBeams ∧
      ∀ (j : ℕ) old, res.ranges[j]? = some old → ∃ new, res'.ranges[j]? = some new ∧ Improves old new
  | [], res, _, hl => ⟨res, rfl, hl, fun j old ho => ⟨old, ho, .refl _⟩⟩
  | t :: ts, res, hva, hl => by
    obtain ⟨v1, v2, v3⟩ := hva t (by simp)
    have hv' : Valid ps ts := fun x hx => hva x (by simp [hx])
    simp only [renderTriangles, vget, List.getElem?_eq_getElem v1, List.getElem?_eq_getElem v2,
      List.getElem?_eq_getElem v3, bind, Except.bind]
    split
    · exact renderTriangles_any hF hu hv h T ps ts res hv' hl
    · rename_i q1 q2 _
      obtain ⟨r1, e1, e2, e3⟩ := renderLine_any hF hu h q1 q2 res hl
      obtain ⟨r2, f1, f2, f3⟩ := renderTriangles_any hF hu hv h T ps ts r1 hv' e2
      rw [e1]
      refine ⟨r2, f1, f2, fun j old ho => ?_⟩
      obtain ⟨n1, g1, g2⟩ := e3 j old ho
      obtain ⟨n2, g3, g4⟩ := f3 j n1 g1
      exact ⟨n2, g3, (g2.improves hF hv).trans g4⟩

end RoundedLRF

end Geo
