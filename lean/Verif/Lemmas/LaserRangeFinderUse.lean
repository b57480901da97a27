import Verif.Lemmas.LaserRangeFinderLine

/-!
# Lemmas for the soundness and completeness of `renderLine`
-/

namespace Geo

open Spec

theorem combine_cases (r d : EReal) : combine r d = d ∨ combine r d = r := by
  unfold combine
  split_ifs
  · exact .inl rfl
  · exact .inr rfl

theorem drawn_change {l : LRF} {p1 s : Vec2} {a b j : ℕ} {r : EReal} (h : drawn l p1 s a b j r ≠ r) :
    (a ≤ j ∧ j < b) ∧ hit l p1 s j = some (drawn l p1 s a b j r) := by
  unfold drawn at h ⊢
  split_ifs at h ⊢ with hc
  · refine ⟨hc, ?_⟩
    cases hh : hit l p1 s j with
    | none => simp [hh] at h
    | some d =>
      simp only [hh] at h ⊢
      rw [(combine_cases r d).resolve_right h]
  · exact absurd rfl h

theorem combine_le {r d : EReal} (hd : 0 < d) : combine r d ≤ d ∧ combine r d ≠ 0 := by
  unfold combine
  split_ifs with hc
  · exact ⟨le_rfl, hd.ne'⟩
  · push Not at hc
    exact ⟨hc.2, hc.1⟩

theorem combine_keeps {r d e : EReal} (hd : 0 < d) (h : r ≤ e ∧ r ≠ 0) : combine r d ≤ e ∧ combine r d ≠ 0 := by
  unfold combine
  split_ifs with hc
  · exact ⟨(hc.resolve_left h.2).le.trans h.1, hd.ne'⟩
  · exact h

theorem hit_pos {l : LRF} {p1 s : Vec2} {j : ℕ} {d : EReal} (h : hit l p1 s j = some d) : 0 < d := by
  unfold hit at h
  split at h
  · cases h
  · split at h
    · cases h
    · split_ifs at h with hc
      simp only [Option.some.injEq] at h
      exact h ▸ hc

theorem drawn_hit {l : LRF} {p1 s : Vec2} {a b j : ℕ} {d : EReal} (h : hit l p1 s j = some d) (ha : a ≤ j) (hb : j < b)
    (r : EReal) : drawn l p1 s a b j r ≤ d ∧ drawn l p1 s a b j r ≠ 0 := by
  unfold drawn
  rw [if_pos ⟨ha, hb⟩, h]
  exact combine_le (hit_pos h)

theorem drawn_keeps {l : LRF} {p1 s : Vec2} {a b j : ℕ} {r e : EReal} (h : r ≤ e ∧ r ≠ 0) :
    drawn l p1 s a b j r ≤ e ∧ drawn l p1 s a b j r ≠ 0 := by
  unfold drawn
  split_ifs
  · cases hh : hit l p1 s j with
    | none => exact h
    | some d => exact combine_keeps (hit_pos hh) h
  · exact h

/-- The depth of a beam that crosses a segment. -/
theorem hit_eq {l : LRF} (ht : TablesOk l) {p1 s : Vec2} {j : ℕ} (hj : j < l.numBeams)
    (hD : (dir (beamAngle l.aMin l.aMax l.numBeams j)).cross s ≠ 0)
    (hq : 0 < p1.cross s / (dir (beamAngle l.aMin l.aMax l.numBeams j)).cross s) :
    hit l p1 s j = some ((p1.cross s / (dir (beamAngle l.aMin l.aMax l.numBeams j)).cross s : ℝ) : EReal) := by
  unfold hit
  rw [(ht.2.2 j hj).2]
  have e : (⟨Real.cos (beamAngle l.aMin l.aMax l.numBeams j), Real.sin (beamAngle l.aMin l.aMax l.numBeams j), 0⟩ :
      Vec3).projectTo2d = dir (beamAngle l.aMin l.aMax l.numBeams j) := rfl
  simp only [e, RenderResult.quotient]
  rw [if_pos hD]
  simp only
  rw [if_pos (by exact_mod_cast hq)]

theorem dir_ne (a : ℝ) : ¬ ((dir a).x = 0 ∧ (dir a).y = 0) := by
  rintro ⟨h1, h2⟩
  have := Real.sin_sq_add_cos_sq a
  simp only [dir] at h1 h2
  rw [h1, h2] at this
  norm_num at this

theorem beam_range {l : LRF} (h : Fine l) {j : ℕ} (hj : j < l.numBeams) :
    -Real.pi ≤ beamAngle l.aMin l.aMax l.numBeams j ∧ beamAngle l.aMin l.aMax l.numBeams j ≤ Real.pi := by
  have hs := LRF.spacing_pos h.ready
  have h1 : ((max (l.numBeams - 1) 1 : ℕ) : ℝ) * spacing l = l.aMax - l.aMin := by
    unfold spacing
    rw [mul_div_cancel₀]
    exact_mod_cast (by omega : max (l.numBeams - 1) 1 ≠ 0)
  have h2 : (j : ℝ) ≤ (max (l.numBeams - 1) 1 : ℕ) := by exact_mod_cast (by omega : j ≤ max (l.numBeams - 1) 1)
  have h3 := mul_le_mul_of_nonneg_right h2 hs.le
  have h4 : 0 ≤ (j : ℝ) * spacing l := mul_nonneg (Nat.cast_nonneg j) hs.le
  rw [LRF.beamAngle_eq]
  have := h.lo
  have := h.hi
  constructor <;> linarith

theorem idx_mono {l : LRF} (h : Fine l) {a b : ℝ} (hab : a ≤ b) : idx l a ≤ idx l b := by
  unfold idx
  have := LRF.spacing_pos h.ready
  have : ⌊(a - l.aMin) / spacing l⌋ ≤ ⌊(b - l.aMin) / spacing l⌋ :=
    Int.floor_le_floor (div_le_div_of_nonneg_right (by linarith) this.le)
  omega

theorem le_idx_iff {l : LRF} (h : Fine l) {a : ℝ} (ha : l.aMin ≤ a) (j : ℕ) :
    (idx l a).toNat ≤ j ↔ a < beamAngle l.aMin l.aMax l.numBeams j := by
  have := LRF.lt_index h.ready a j
  have h0 : 0 ≤ idx l a := by
    have : 0 ≤ ⌊(a - l.aMin) / spacing l⌋ :=
      Int.floor_nonneg.2 (div_nonneg (by linarith) (LRF.spacing_pos h.ready).le)
    unfold idx
    omega
  rw [← not_le, ← this]
  change _ ↔ ¬ ((j : ℤ) < idx l a)
  omega

theorem lt_idx_iff {l : LRF} (h : Fine l) {a : ℝ} (j : ℕ) :
    j < (idx l a).toNat ↔ beamAngle l.aMin l.aMax l.numBeams j ≤ a := by
  rw [← LRF.lt_index h.ready a j]
  change _ ↔ ((j : ℤ) < idx l a)
  omega

/-- End points of a segment seen counter-clockwise: the two positions relative to the cut at angle pi. -/
theorem ccw_cases {p1 p2 : Vec2} (h : 0 < p1.cross p2) :
    ¬ (p1.x = 0 ∧ p1.y = 0) ∧ ¬ (p2.x = 0 ∧ p2.y = 0) ∧ (p2 - p1).length2 ≠ 0 ∧
    ((atan2 p1.y p1.x < atan2 p2.y p2.x ∧ atan2 p2.y p2.x < atan2 p1.y p1.x + Real.pi) ∨
      atan2 p2.y p2.x + Real.pi < atan2 p1.y p1.x) := by
  have n1 : ¬ (p1.x = 0 ∧ p1.y = 0) := by
    rintro ⟨a, b⟩
    simp [Vec2.cross, a, b] at h
  have n2 : ¬ (p2.x = 0 ∧ p2.y = 0) := by
    rintro ⟨a, b⟩
    simp [Vec2.cross, a, b] at h
  refine ⟨n1, n2, ?_, ?_⟩
  · intro hc
    have hx : p2.x - p1.x = 0 := by
      simp [Vec2.length2] at hc
      nlinarith [mul_self_nonneg (p2.x - p1.x), mul_self_nonneg (p2.y - p1.y)]
    have hy : p2.y - p1.y = 0 := by
      simp [Vec2.length2] at hc
      nlinarith [mul_self_nonneg (p2.x - p1.x), mul_self_nonneg (p2.y - p1.y)]
    have ex : p2.x = p1.x := by linarith
    have ey : p2.y = p1.y := by linarith
    simp only [Vec2.cross, ex, ey] at h
    linarith
  · obtain ⟨ρ, hρ, x1, y1⟩ := polar_form n1
    obtain ⟨σ, hσ, x2, y2⟩ := polar_form n2
    rw [cross_polar x1 y1 x2 y2] at h
    have hs : 0 < Real.sin (atan2 p2.y p2.x - atan2 p1.y p1.x) := (mul_pos_iff_of_pos_left (mul_pos hρ hσ)).1 h
    obtain ⟨a1, a2⟩ := atan2_mem p1.y p1.x
    obtain ⟨b1, b2⟩ := atan2_mem p2.y p2.x
    rcases sin_pos_cases (by linarith) (by linarith) hs with ⟨c1, c2⟩ | ⟨c1, c2⟩
    · left; constructor <;> linarith
    · right; linarith

/-- A beam inside the angle of a segment seen counter-clockwise is drawn at a point of the segment. -/
theorem sector_hit {l : LRF} (ht : TablesOk l) {p1 p2 : Vec2} {j : ℕ} (hj : j < l.numBeams) (h : 0 < p1.cross p2)
    (h1 : 0 ≤ Real.sin (beamAngle l.aMin l.aMax l.numBeams j - atan2 p1.y p1.x))
    (h2 : 0 ≤ Real.sin (atan2 p2.y p2.x - beamAngle l.aMin l.aMax l.numBeams j)) {e : EReal}
    (he : hit l p1 (p2 - p1) j = some e) :
    ∃ d : ℝ, 0 < d ∧ e = d ∧ OnSeg p1 p2 ⟨d * (dir (beamAngle l.aMin l.aMax l.numBeams j)).x,
      d * (dir (beamAngle l.aMin l.aMax l.numBeams j)).y⟩ := by
  obtain ⟨n1, n2, _⟩ := ccw_cases h
  obtain ⟨ρ, hρ, x1, y1⟩ := polar_form n1
  obtain ⟨σ, hσ, x2, y2⟩ := polar_form n2
  have g1 : 0 ≤ p1.cross (dir (beamAngle l.aMin l.aMax l.numBeams j)) := by
    rw [cross_polar x1 y1 (σ := 1) (β := beamAngle l.aMin l.aMax l.numBeams j) (by simp [dir]) (by simp [dir])]
    exact mul_nonneg (by linarith) h1
  have g2 : 0 ≤ (dir (beamAngle l.aMin l.aMax l.numBeams j)).cross p2 := by
    rw [cross_polar (ρ := 1) (α := beamAngle l.aMin l.aMax l.numBeams j) (by simp [dir]) (by simp [dir]) x2 y2]
    exact mul_nonneg (by linarith) h2
  obtain ⟨s1, s2, s3⟩ := beam_hits h (dir_ne _) g1 g2
  rw [hit_eq ht hj s1.ne' s2] at he
  simp only [Option.some.injEq] at he
  exact ⟨_, s2, he.symm, s3⟩

/-! ## Sensors for the examples -/

theorem LRF.run_append : ∀ (ops ops' : List LRF.Op) (l m : LRF), l.run ops = .ok m → l.run (ops ++ ops') = m.run ops'
  | [], _, l, m, h => by
    simp only [LRF.run, Except.ok.injEq] at h
    rw [h]
    rfl
  | o :: ops, ops', l, m, h => by
    simp only [LRF.run, bind, Except.bind, List.cons_append] at h ⊢
    cases hs : l.step o with
    | error e => simp [hs] at h
    | ok k =>
      simp only [hs] at h ⊢
      exact LRF.run_append ops ops' k m h

theorem exists_sensor {a b R : ℝ} {n : ℕ} (hn : 0 < n) (hab : a < b) (lo : -Real.pi ≤ a) (hi : b ≤ Real.pi)
    (hs : 2 * Real.pi * (max (n - 1) 1 : ℕ) < (2 ^ 31 - 1) * (b - a)) :
    ∃ l, LRF.new.run [.rangeLimits 0 R, .angleLimits a b, .numBeams n] = .ok l ∧
      l.aMin = a ∧ l.aMax = b ∧ l.numBeams = n ∧ l.rangeMax = R ∧ Fine l := by
  have hm : (0 : ℝ) < (max (n - 1) 1 : ℕ) := by exact_mod_cast (by omega : 0 < max (n - 1) 1)
  have hd : 0 < (b - a) / (max (n - 1) 1 : ℕ) := div_pos (sub_pos.2 hab) hm
  have hp := Real.pi_pos
  have hst : 2 * Real.pi < (2 ^ 31 - 1) * ((b - a) / (max (n - 1) 1 : ℕ)) := by
    rw [← mul_div_assoc, lt_div_iff₀ hm]
    exact hs
  have hq : 0 ≤ Real.pi / ((b - a) / (max (n - 1) 1 : ℕ)) := div_nonneg hp.le hd.le
  have hc : castUInt (Real.pi / ((b - a) / (max (n - 1) 1 : ℕ))) =
      .ok ⌊Real.pi / ((b - a) / (max (n - 1) 1 : ℕ))⌋.toNat := by
    unfold castUInt
    rw [trunc, if_pos hq, if_pos]
    refine ⟨Int.floor_nonneg.2 hq, ?_⟩
    have : ⌊Real.pi / ((b - a) / (max (n - 1) 1 : ℕ))⌋ < 2 ^ 31 - 1 := by
      apply Int.floor_lt.2
      rw [div_lt_iff₀ hd]
      generalize (b - a) / ((max (n - 1) 1 : ℕ) : ℝ) = w at hst
      push_cast
      linarith
    omega
  obtain ⟨l, hl⟩ : ∃ l, LRF.new.run [.rangeLimits 0 R, .angleLimits a b, .numBeams n] = .ok l := by
    simp only [LRF.run, LRF.step, LRF.setRangeLimits, LRF.setAngleLimits, LRF.setNumBeams, LRF.new, bind, Except.bind,
      LRF.calculateRays]
    rw [if_neg (by omega)]
    simp only
    rw [if_pos ⟨hn, sub_pos.2 hab⟩, hc]
    exact ⟨_, rfl⟩
  obtain ⟨_, i1, i2, i3⟩ := LRF.run_inv _ _ _ LRF.inv_new hl
  simp only [List.foldl, Prod.mk.injEq] at i1 i2 i3
  refine ⟨l, hl, i1.1, i1.2, i3, i2.2, ⟨⟨⟨_, hl⟩, by omega, by rw [i1.1, i1.2]; exact hab⟩, by rw [i1.1]; exact lo,
    by rw [i1.2]; exact hi, ?_⟩⟩
  unfold spacing
  rw [i1.1, i1.2, i3]
  exact hst

theorem atan2_lower_right {x y : ℝ} (hx : 0 < x) (hy : y < 0) : -(Real.pi / 2) < atan2 y x ∧ atan2 y x < 0 := by
  unfold atan2
  refine ⟨?_, Complex.arg_neg_iff.2 hy⟩
  have := (Complex.abs_arg_lt_pi_div_two_iff (z := ⟨x, y⟩)).2 (.inl hx)
  exact (abs_lt.1 this).1

theorem atan2_upper_right {x y : ℝ} (hx : 0 < x) (hy : 0 ≤ y) : 0 ≤ atan2 y x ∧ atan2 y x < Real.pi / 2 := by
  unfold atan2
  refine ⟨Complex.arg_nonneg_iff.2 hy, ?_⟩
  have := (Complex.abs_arg_lt_pi_div_two_iff (z := ⟨x, y⟩)).2 (.inl hx)
  exact (abs_lt.1 this).2

/-- Indices from an integer interval. -/
theorem idx_eq {l : LRF} (h : Fine l) {a : ℝ} {k : ℕ} (h1 : l.aMin + k * spacing l ≤ a)
    (h2 : a < l.aMin + (k + 1) * spacing l) : idx l a = k + 1 := by
  have hs := LRF.spacing_pos h.ready
  unfold idx
  congr 1
  rw [Int.floor_eq_iff]
  constructor
  · rw [le_div_iff₀ hs]; push_cast; linarith
  · rw [div_lt_iff₀ hs]; push_cast; linarith

/-- Angles up to one step below the first beam. -/
theorem raw_below {l : LRF} (h : Fine l) {a : ℝ} (h1 : l.aMin - spacing l < a) (h2 : a < l.aMin) :
    l.getAngleUpperIndexRaw a = .ok 1 := by
  have hs := LRF.spacing_pos h.ready
  have hi := (LRF.ready_inv h.ready).2.1
  unfold LRF.getAngleUpperIndexRaw
  rw [if_neg (by rw [hi]; exact hs.ne'), hi]
  have ht : trunc ((a - l.aMin) / spacing l) = 0 := by
    rw [trunc, if_neg (not_le.2 (div_neg_of_neg_of_pos (by linarith) hs)), Int.ceil_eq_iff]
    constructor
    · push_cast; rw [lt_div_iff₀ hs]; linarith
    · push_cast; exact (div_neg_of_neg_of_pos (by linarith) hs).le
  simp only [castInt, ht, bind, Except.bind, intOp]
  norm_num

/-- Angles farther below. -/
theorem raw_far_below {l : LRF} (h : Fine l) {a : ℝ} (h0 : -Real.pi ≤ a) (h1 : a ≤ l.aMin - spacing l) :
    l.getAngleUpperIndexRaw a = .ok (⌈(a - l.aMin) / spacing l⌉ + 1) ∧ ⌈(a - l.aMin) / spacing l⌉ + 1 ≤ 0 := by
  have hs := LRF.spacing_pos h.ready
  have hi := (LRF.ready_inv h.ready).2.1
  have hc : ⌈(a - l.aMin) / spacing l⌉ ≤ -1 := by
    rw [Int.ceil_le]
    push_cast
    rw [div_le_iff₀ hs]
    linarith
  have hl : -(2 ^ 31) ≤ ⌈(a - l.aMin) / spacing l⌉ := by
    have : ((-(2 ^ 31) : ℤ) : ℝ) ≤ ⌈(a - l.aMin) / spacing l⌉ := by
      refine le_trans ?_ (Int.le_ceil _)
      rw [le_div_iff₀ hs]
      have := h.steps
      have := h.hi
      have := h.ready.2.2
      push_cast
      linarith
    exact_mod_cast this
  unfold LRF.getAngleUpperIndexRaw
  rw [if_neg (by rw [hi]; exact hs.ne'), hi]
  have ht : trunc ((a - l.aMin) / spacing l) = ⌈(a - l.aMin) / spacing l⌉ := by
    rw [trunc, if_neg (not_le.2 (div_neg_of_neg_of_pos (by linarith) hs))]
  refine ⟨?_, by omega⟩
  simp only [castInt, ht]
  rw [if_pos ⟨by omega, by omega⟩]
  simp only [bind, Except.bind, intOp]
  rw [if_pos ⟨by omega, by omega⟩]

/-! ## Sequences of points -/

theorem renderPoints_ok : ∀ (ps : List (ℕ × EReal)) (ranges : List EReal), (∀ p ∈ ps, p.1 < ranges.length) →
    ∃ ranges', RenderResult.renderPoints ps ranges = .ok ranges' ∧ ranges'.length = ranges.length ∧
      ∀ j : ℕ, ranges'[j]? = (ranges[j]?).map fun r => ps.foldl (fun r p => if p.1 = j then combine r p.2 else r) r
  | [], ranges, _ => ⟨ranges, rfl, rfl, fun j => by simp⟩
  | (i, d) :: ps, ranges, h => by
    have hi : i < ranges.length := h (i, d) (by simp)
    obtain ⟨r', g1, g2, g3⟩ := renderPoints_ok ps (ranges.set i (combine ranges[i] d))
      (by intro p hp; rw [List.length_set]; exact h p (by simp [hp]))
    refine ⟨r', ?_, g2.trans (by simp), fun j => ?_⟩
    · simp only [RenderResult.renderPoints, renderPoint_ok d hi, bind, Except.bind, g1]
    · rw [g3, List.getElem?_set]
      by_cases hj : i = j
      · subst hj
        rw [if_pos rfl, if_pos hi, List.getElem?_eq_getElem hi]
        simp
      · rw [if_neg hj]
        simp [hj]

theorem combine_nearest {old new d : EReal} {ds : Set EReal} (hp : ∀ x ∈ ds, 0 < x)
    (h : IsNearest old ds new) : IsNearest old (insert d ds) (combine new d) := by
  refine ⟨fun he => absurd he (Set.insert_nonempty _ _).ne_empty, fun _ => ?_⟩
  rcases ds.eq_empty_or_nonempty with he | hne
  · have hn := h.1 he
    subst hn
    subst he
    unfold combine
    split_ifs with hc
    · refine ⟨.inl (by simp), ?_⟩
      rintro x (hx | ⟨hx, h0⟩)
      · simp at hx; exact hx.ge
      · subst hx; exact (hc.resolve_left h0).le
    · push Not at hc
      refine ⟨.inr ⟨rfl, hc.1⟩, ?_⟩
      rintro x (hx | ⟨hx, h0⟩)
      · simp at hx; rw [hx]; exact hc.2
      · exact hx.ge
  · obtain ⟨hm, hl⟩ := h.2 hne
    have h0 : new ≠ 0 := by
      rcases hm with hm | ⟨hm, hz⟩
      · exact (hp _ hm).ne'
      · rw [hm]; exact hz
    unfold combine
    split_ifs with hc
    · replace hc := hc.resolve_left h0
      refine ⟨.inl (by simp), ?_⟩
      rintro x (hx | hx)
      · rcases hx with hx | hx
        · exact hx.ge
        · exact hc.le.trans (hl (.inl hx))
      · exact hc.le.trans (hl (.inr hx))
    · push Not at hc
      refine ⟨?_, ?_⟩
      · rcases hm with hm | hm
        · exact .inl (.inr hm)
        · exact .inr hm
      rintro x (hx | hx)
      · rcases hx with hx | hx
        · rw [hx]; exact hc.2
        · exact hl (.inl hx)
      · exact hl (.inr hx)

theorem foldl_nearest (j : ℕ) (old : EReal) : ∀ (ps : List (ℕ × EReal)) (ds : Set EReal) (r : EReal),
    (∀ p ∈ ps, 0 < p.2) → (∀ x ∈ ds, 0 < x) → IsNearest old ds r →
    IsNearest old (ds ∪ {d | (j, d) ∈ ps}) (ps.foldl (fun r p => if p.1 = j then combine r p.2 else r) r)
  | [], ds, r, _, _, h => by simpa using h
  | (i, d) :: ps, ds, r, hp, hd, h => by
    rw [List.foldl_cons]
    have hp' : ∀ p ∈ ps, 0 < p.2 := fun p hq => hp p (by simp [hq])
    by_cases hj : i = j
    · subst hj
      simp only [if_true]
      have hdp : 0 < d := hp (i, d) (by simp)
      have := foldl_nearest i old ps (insert d ds) (combine r d) hp'
        (by rintro x (hx | hx); exacts [hx ▸ hdp, hd x hx]) (combine_nearest hd h)
      convert this using 1
      ext x
      simp
      tauto
    · rw [if_neg hj]
      have := foldl_nearest j old ps ds r hp' hd h
      convert this using 1
      ext x
      simp
      constructor
      · rintro (a | ⟨a, -⟩ | a)
        · exact .inl a
        · exact absurd a.symm hj
        · exact .inr a
      · rintro (a | a)
        · exact .inl a
        · exact .inr (.inr a)

theorem nearest_unique {old a b : EReal} {ds : Set EReal} (ha : IsNearest old ds a) (hb : IsNearest old ds b) :
    a = b := by
  rcases ds.eq_empty_or_nonempty with he | hne
  · rw [ha.1 he, hb.1 he]
  · exact (ha.2 hne).unique (hb.2 hne)


/-! ## Lines -/

theorem parts_le {l : LRF} {p1 p2 : Vec2} {res : RenderResult} {a1 b1 a2 b2 lo hi : ℕ}
    (h : RenderResult.parts l p1 p2 res = .ok (some ((a1, b1), (a2, b2), (lo, hi)))) :
    b1 ≤ l.numBeams ∧ b2 ≤ l.numBeams := by
  unfold RenderResult.parts at h
  cases i1 : l.getAngleUpperIndexRaw2 p1.x p1.y with
  | error e => simp only [i1, bind, Except.bind] at h; cases h
  | ok k1 =>
    cases i2 : l.getAngleUpperIndexRaw2 p2.x p2.y with
    | error e => simp only [i1, i2, bind, Except.bind] at h; cases h
    | ok k2 =>
      cases i3 : intOp (max k1 k2 - min k1 k2) with
      | error e => simp only [i1, i2, i3, bind, Except.bind] at h; cases h
      | ok k3 =>
        simp only [i1, i2, i3, bind, Except.bind, pure, Except.pure] at h
        split_ifs at h <;> simp only [Except.ok.injEq, Option.some.injEq, Prod.mk.injEq, reduceCtorEq] at h
        · obtain ⟨⟨-, h2⟩, ⟨-, h4⟩, -⟩ := h
          omega
        · obtain ⟨⟨-, h2⟩, ⟨-, h4⟩, -⟩ := h
          omega

/-- Every changed range is the depth of the beam. -/
theorem renderLine_change {l : LRF} (t : l.rayDirs.length = l.numBeams) {p1 p2 : Vec2} {res res' : RenderResult}
    (hl : res.ranges.length = l.numBeams) (h : RenderResult.renderLine l res p1 p2 = .ok res') :
    res'.ranges.length = l.numBeams ∧ ∀ (j : ℕ) old new, res.ranges[j]? = some old → res'.ranges[j]? = some new →
      new ≠ old → hit l p1 (p2 - p1) j = some new := by
  have same : res' = res → res'.ranges.length = l.numBeams ∧ ∀ (j : ℕ) old new, res.ranges[j]? = some old →
      res'.ranges[j]? = some new → new ≠ old → hit l p1 (p2 - p1) j = some new := by
    rintro rfl
    refine ⟨hl, fun j old new h1 h2 h3 => absurd ?_ h3⟩
    rw [h1] at h2
    exact (Option.some.inj h2).symm
  unfold RenderResult.renderLine at h
  dsimp only at h
  split_ifs at h with c1 c2
  · exact same (Except.ok.inj h).symm
  · exact same (Except.ok.inj h).symm
  · cases hp : RenderResult.parts l p1 p2 res with
    | error e => simp only [hp, bind, Except.bind] at h; cases h
    | ok o =>
      match o, hp with
      | none, hp =>
        simp only [hp, bind, Except.bind] at h
        exact same (Except.ok.inj h).symm
      | some ((a1, b1), (a2, b2), (lo, hi)), hp =>
        obtain ⟨e1, e2⟩ := parts_le hp
        obtain ⟨r1, d1, d2, d3⟩ := drawPart_range l p1 (p2 - p1) a1 b1 res.ranges (by omega) (by omega)
        obtain ⟨r2, f1, f2, f3⟩ := drawPart_range l p1 (p2 - p1) a2 b2 r1 (by omega) (by omega)
        simp only [hp, bind, Except.bind, d1, f1] at h
        have := (Except.ok.inj h).symm
        subst this
        refine ⟨f2.trans (d2.trans hl), fun j old new h1 h2 h3 => ?_⟩
        simp only at h2
        rw [f3, d3, h1] at h2
        simp only [Option.map_some, Option.some.injEq] at h2
        by_cases hc : drawn l p1 (p2 - p1) a2 b2 j (drawn l p1 (p2 - p1) a1 b1 j old) = drawn l p1 (p2 - p1) a1 b1 j old
        · rw [hc] at h2
          rw [← h2] at h3 ⊢
          exact (drawn_change h3).2
        · rw [← h2]
          exact (drawn_change hc).2

theorem hit_cases {l : LRF} (ht : TablesOk l) {p1 s : Vec2} {j : ℕ} (hj : j < l.numBeams) {e : EReal}
    (he : hit l p1 s j = some e) :
    ((dir (beamAngle l.aMin l.aMax l.numBeams j)).cross s ≠ 0 ∧
      0 < p1.cross s / (dir (beamAngle l.aMin l.aMax l.numBeams j)).cross s ∧
      e = ((p1.cross s / (dir (beamAngle l.aMin l.aMax l.numBeams j)).cross s : ℝ) : EReal)) ∨
    (e = ⊤ ∧ (dir (beamAngle l.aMin l.aMax l.numBeams j)).cross s = 0) := by
  unfold hit at he
  rw [(ht.2.2 j hj).2] at he
  have ee : (⟨Real.cos (beamAngle l.aMin l.aMax l.numBeams j), Real.sin (beamAngle l.aMin l.aMax l.numBeams j), 0⟩ :
      Vec3).projectTo2d = dir (beamAngle l.aMin l.aMax l.numBeams j) := rfl
  simp only [ee, RenderResult.quotient] at he
  by_cases hD : (dir (beamAngle l.aMin l.aMax l.numBeams j)).cross s ≠ 0
  · rw [if_pos hD] at he
    simp only at he
    split_ifs at he with hc
    refine .inl ⟨hD, by exact_mod_cast hc, (Option.some.inj he).symm⟩
  · rw [if_neg hD] at he
    push Not at hD
    refine .inr ⟨?_, hD⟩
    split_ifs at he with c1 c2
    · simp at he; exact he.symm
    · simp at he

/-- The computed depth is on the line. -/
theorem depth_on_line {p1 p2 r : Vec2} (h : r.cross (p2 - p1) ≠ 0) :
    OnLine p1 p2 ⟨p1.cross (p2 - p1) / r.cross (p2 - p1) * r.x, p1.cross (p2 - p1) / r.cross (p2 - p1) * r.y⟩ := by
  refine ⟨p1.cross r / r.cross (p2 - p1), ?_, ?_⟩
  · field_simp
    simp [Vec2.cross]
    ring
  · field_simp
    simp [Vec2.cross]
    ring

/-- Beams counted by their angle. -/
theorem sector_change {l : LRF} (h : Fine l) {p1 p2 : Vec2} (a1 : l.aMin ≤ atan2 p1.y p1.x) {j : ℕ} {old : EReal}
    (hf : 0 < p1.cross p2)
    (hpi : atan2 p2.y p2.x < atan2 p1.y p1.x + Real.pi)
    (hc : drawn l p1 (p2 - p1) (idx l (atan2 p1.y p1.x)).toNat (min l.numBeams (idx l (atan2 p2.y p2.x)).toNat) j old
      ≠ old) : ∃ d : ℝ, 0 < d ∧
      drawn l p1 (p2 - p1) (idx l (atan2 p1.y p1.x)).toNat (min l.numBeams (idx l (atan2 p2.y p2.x)).toNat) j old = d ∧
      OnSeg p1 p2 ⟨d * (dir (beamAngle l.aMin l.aMax l.numBeams j)).x,
        d * (dir (beamAngle l.aMin l.aMax l.numBeams j)).y⟩ := by
  obtain ⟨⟨c1, c2⟩, c3⟩ := drawn_change hc
  have hj : j < l.numBeams := by omega
  rw [le_idx_iff h a1] at c1
  have c2' := (lt_idx_iff h j).1 (by omega : j < (idx l (atan2 p2.y p2.x)).toNat)
  exact sector_hit (LRF.ready_inv h.ready).1 hj hf
    (Real.sin_nonneg_of_nonneg_of_le_pi (by linarith) (by linarith))
    (Real.sin_nonneg_of_nonneg_of_le_pi (by linarith) (by linarith)) c3

theorem half_pos {l : LRF} (h : Fine l) (hs : spacing l ≤ Real.pi) : 1 ≤ ⌊Real.pi / spacing l⌋ := by
  have := LRF.spacing_pos h.ready
  rw [Int.le_floor, le_div_iff₀ this]
  push_cast
  linarith

theorem renderLine_skip {l : LRF} {p1 p2 : Vec2} (res : RenderResult)
    (h : (p1.x = 0 ∧ p1.y = 0) ∨ (p2.x = 0 ∧ p2.y = 0) ∨ (p2 - p1).length2 = 0 ∨
      (l.rangeMax > 0 ∧ RenderResult.distanceSq p1 p2 > l.rangeMax * l.rangeMax)) :
    RenderResult.renderLine l res p1 p2 = .ok res := by
  unfold RenderResult.renderLine
  dsimp only
  split_ifs with c1 c2
  · rfl
  · rfl
  · exfalso
    tauto

/-- Fewer steps than half a turn apart, and in counter-clockwise order. -/
theorem one_part_ccw {l : LRF} (h : Fine l) {p1 p2 : Vec2} (n1 : ¬ (p1.x = 0 ∧ p1.y = 0))
    (n2 : ¬ (p2.x = 0 ∧ p2.y = 0)) (h1 : idx l (atan2 p1.y p1.x) < idx l (atan2 p2.y p2.x))
    (h2 : idx l (atan2 p2.y p2.x) - idx l (atan2 p1.y p1.x) < ⌊Real.pi / spacing l⌋) :
    0 < p1.cross p2 ∧ atan2 p1.y p1.x < atan2 p2.y p2.x ∧ atan2 p2.y p2.x < atan2 p1.y p1.x + Real.pi := by
  have hs := LRF.spacing_pos h.ready
  have hlt : atan2 p1.y p1.x < atan2 p2.y p2.x := by
    by_contra hc
    have := idx_mono h (not_lt.1 hc)
    omega
  have hpi : atan2 p2.y p2.x < atan2 p1.y p1.x + Real.pi := by
    have e1 := Int.lt_floor_add_one ((atan2 p2.y p2.x - l.aMin) / spacing l)
    have e2 := Int.floor_le ((atan2 p1.y p1.x - l.aMin) / spacing l)
    have e3 := Int.floor_le (Real.pi / spacing l)
    have e4 : (⌊(atan2 p2.y p2.x - l.aMin) / spacing l⌋ : ℝ) + 1 ≤
        ⌊(atan2 p1.y p1.x - l.aMin) / spacing l⌋ + ⌊Real.pi / spacing l⌋ := by
      unfold idx at h2
      exact_mod_cast (by omega : ⌊(atan2 p2.y p2.x - l.aMin) / spacing l⌋ + 1 ≤
        ⌊(atan2 p1.y p1.x - l.aMin) / spacing l⌋ + ⌊Real.pi / spacing l⌋)
    have e5 : (atan2 p2.y p2.x - l.aMin) / spacing l < (atan2 p1.y p1.x - l.aMin) / spacing l + Real.pi / spacing l := by
      linarith
    rw [← add_div, div_lt_div_iff_of_pos_right hs] at e5
    linarith
  refine ⟨?_, hlt, hpi⟩
  obtain ⟨ρ, hρ, x1, y1⟩ := polar_form n1
  obtain ⟨σ, hσ, x2, y2⟩ := polar_form n2
  rw [cross_polar x1 y1 x2 y2]
  exact mul_pos (mul_pos hρ hσ) (Real.sin_pos_of_pos_of_lt_pi (by linarith) (by linarith))

/-- A beam that crosses the interior of a line seen counter-clockwise is in one of the parts. -/
theorem interior_beam {p1 p2 : Vec2} {α d t : ℝ} (h : 0 < p1.cross p2) (hd : 0 < d) (ht : 0 < t) (ht1 : t < 1)
    (hq : AtParam p1 p2 t ⟨d * (dir α).x, d * (dir α).y⟩) (b1 : -Real.pi ≤ α) (b2 : α ≤ Real.pi) :
    (atan2 p1.y p1.x < atan2 p2.y p2.x → atan2 p1.y p1.x < α ∧ α < atan2 p2.y p2.x) ∧
    (atan2 p2.y p2.x < atan2 p1.y p1.x → atan2 p1.y p1.x < α ∨ α < atan2 p2.y p2.x) := by
  obtain ⟨n1, n2, _, hc⟩ := ccw_cases h
  obtain ⟨g1, _, _, g2⟩ := hits_beam h hd ht ht1.le hq
  replace g2 := g2 ht1
  obtain ⟨ρ, hρ, x1, y1⟩ := polar_form n1
  obtain ⟨σ, hσ, x2, y2⟩ := polar_form n2
  rw [cross_polar x1 y1 (σ := 1) (β := α) (by simp [dir]) (by simp [dir])] at g1
  rw [cross_polar (ρ := 1) (α := α) (by simp [dir]) (by simp [dir]) x2 y2] at g2
  have s1 := (mul_pos_iff_of_pos_left (by linarith : 0 < ρ * 1)).1 g1
  have s2 := (mul_pos_iff_of_pos_left (by linarith : 0 < 1 * σ)).1 g2
  obtain ⟨u1, u2⟩ := atan2_mem p1.y p1.x
  obtain ⟨v1, v2⟩ := atan2_mem p2.y p2.x
  have hp := Real.pi_pos
  have k1 := sin_pos_cases (by linarith) (by linarith) s1
  have k2 := sin_pos_cases (by linarith) (by linarith) s2
  constructor
  · intro hlt
    rcases k1 with k1 | k1 <;> rcases k2 with k2 | k2 <;> rcases hc with hc | hc <;> constructor <;> linarith
  · intro hlt
    rcases k1 with k1 | k1
    · left; linarith
    · rcases k2 with k2 | k2
      · right; linarith
      · exfalso; linarith

theorem near_of_hit {l : LRF} {p1 p2 : Vec2} (n3 : (p2 - p1).length2 ≠ 0) {α d : ℝ}
    (hq : OnSeg p1 p2 ⟨d * (dir α).x, d * (dir α).y⟩) (hd : 0 < d) (hm : l.rangeMax ≤ 0 ∨ d ≤ l.rangeMax) :
    ¬ (l.rangeMax > 0 ∧ RenderResult.distanceSq p1 p2 > l.rangeMax * l.rangeMax) := by
  rintro ⟨h1, h2⟩
  have := (distanceSq_least n3).2 ⟨_, hq, rfl⟩
  have e : (d * (dir α).x) ^ 2 + (d * (dir α).y) ^ 2 = d ^ 2 := by
    have := Real.sin_sq_add_cos_sq α
    simp only [dir]
    linear_combination d ^ 2 * this
  simp only at this
  rw [e] at this
  rcases hm with hm | hm
  · linarith
  · nlinarith

theorem hit_at {l : LRF} (ht : TablesOk l) {p1 p2 : Vec2} {j : ℕ} (hj : j < l.numBeams) {d t : ℝ} (h : 0 < p1.cross p2)
    (hd : 0 < d) (h0 : 0 < t) (h1 : t ≤ 1) (hq : AtParam p1 p2 t
      ⟨d * (dir (beamAngle l.aMin l.aMax l.numBeams j)).x, d * (dir (beamAngle l.aMin l.aMax l.numBeams j)).y⟩) :
    hit l p1 (p2 - p1) j = some (d : EReal) := by
  obtain ⟨_, _, g, _⟩ := hits_beam h hd h0 h1 hq
  have hD : (dir (beamAngle l.aMin l.aMax l.numBeams j)).cross (p2 - p1) ≠ 0 := by
    intro hc
    rw [hc, div_zero] at g
    linarith
  rw [hit_eq ht hj hD (by rw [g]; exact hd), g]

/-- Angles up to two beams less than half a turn apart are fewer steps apart than half a turn has. -/
theorem idx_gap {l : LRF} (h : Fine l) {a b : ℝ} (hg : b - a ≤ Real.pi - 2 * spacing l) :
    idx l b - idx l a < ⌊Real.pi / spacing l⌋ := by
  have hs := LRF.spacing_pos h.ready
  have e1 := Int.lt_floor_add_one ((a - l.aMin) / spacing l)
  have e2 := Int.floor_le ((b - l.aMin) / spacing l)
  have e3 : (b - l.aMin) / spacing l ≤ (a - l.aMin) / spacing l + (Real.pi / spacing l - 2) := by
    have : Real.pi / spacing l - 2 = (Real.pi - 2 * spacing l) / spacing l := by field_simp
    rw [this, ← add_div]
    exact div_le_div_of_nonneg_right (by linarith) hs.le
  unfold idx
  rw [add_sub_add_right_eq_sub, Int.lt_iff_add_one_le, Int.le_floor]
  push_cast
  linarith

/-- Angles more than half a turn apart. -/
theorem idx_far {l : LRF} (h : Fine l) {a b : ℝ} (hg : a + Real.pi < b) :
    ⌊Real.pi / spacing l⌋ ≤ idx l b - idx l a := by
  have hs := LRF.spacing_pos h.ready
  have e1 := Int.lt_floor_add_one ((b - l.aMin) / spacing l)
  have e2 := Int.floor_le ((a - l.aMin) / spacing l)
  have e3 : (a - l.aMin) / spacing l + Real.pi / spacing l < (b - l.aMin) / spacing l := by
    rw [← add_div]
    exact div_lt_div_of_pos_right (by linarith) hs
  have e4 := Int.floor_le (Real.pi / spacing l)
  unfold idx
  rw [add_sub_add_right_eq_sub]
  have : (⌊Real.pi / spacing l⌋ : ℝ) < ((⌊(b - l.aMin) / spacing l⌋ - ⌊(a - l.aMin) / spacing l⌋ + 1 : ℤ) : ℝ) := by
    push_cast
    linarith
  have := Int.cast_lt.1 this
  omega

/-- The range limit is not used to draw. -/
theorem drawPart_range_free (l : LRF) (R : ℝ) (p1 s : Vec2) : ∀ (n i : ℕ) (ranges : List EReal),
    RenderResult.drawPart { l with rangeMax := R } p1 s n i ranges = RenderResult.drawPart l p1 s n i ranges
  | 0, _, _ => rfl
  | n + 1, i, ranges => by
    have ih := drawPart_range_free l R p1 s n
    simp only [RenderResult.drawPart, ih]

/-- A beam that hits the interior of a line facing the sensor. -/
theorem line_complete {l : LRF} (h : Fine l) {p1 p2 : Vec2} (hf : 0 < p1.cross p2)
    (a1 : l.aMin ≤ atan2 p1.y p1.x) (a2 : l.aMin ≤ atan2 p2.y p2.x)
    (hg : atan2 p1.y p1.x < atan2 p2.y p2.x → atan2 p2.y p2.x - atan2 p1.y p1.x ≤ Real.pi - 2 * spacing l)
    {j : ℕ} (hj : j < l.numBeams) {d t : ℝ} (hd : 0 < d) (hm : l.rangeMax ≤ 0 ∨ d ≤ l.rangeMax) (h0 : 0 < t) (h1 : t < 1)
    (hq : AtParam p1 p2 t ⟨d * (dir (beamAngle l.aMin l.aMax l.numBeams j)).x,
      d * (dir (beamAngle l.aMin l.aMax l.numBeams j)).y⟩)
    (res : RenderResult) (hl : res.ranges.length = l.numBeams) :
    ∃ res' new, RenderResult.renderLine l res p1 p2 = .ok res' ∧ res'.ranges[j]? = some new ∧ new ≤ d ∧ new ≠ 0 := by
  obtain ⟨n1, n2, n3, hpos⟩ := ccw_cases hf
  have ht := (LRF.ready_inv h.ready).1
  obtain ⟨r, e1, _, e3⟩ := renderLine_cases h n1 n2 n3 (near_of_hit n3 ⟨t, h0.le, h1.le, hq⟩ hd hm) a1 a2 res hl
  have hh := hit_at ht hj hf hd h0 h1.le hq
  obtain ⟨b1, b2⟩ := beam_range h hj
  obtain ⟨s1, s2⟩ := interior_beam hf hd h0 h1 hq b1 b2
  have hi : res.ranges[j]? = some (res.ranges[j]'(by omega)) := List.getElem?_eq_getElem (by omega)
  refine ⟨r, _, e1, (e3 j).trans (by rw [hi]; rfl), ?_⟩
  rcases hpos with ⟨q1, q2⟩ | q
  · have hm := idx_mono h q1.le
    obtain ⟨c1, c2⟩ := s1 q1
    rw [if_pos (by have := idx_gap h (hg q1); omega), if_pos hm]
    exact drawn_hit hh ((le_idx_iff h a1 j).2 c1) (by have := (lt_idx_iff h j).2 c2.le; omega) _
  · have hp := Real.pi_pos
    have hm := idx_mono h (by linarith : atan2 p2.y p2.x ≤ atan2 p1.y p1.x)
    rw [if_neg (by have := idx_far h q; omega), if_pos hm]
    rcases s2 (by linarith) with c | c
    · exact drawn_keeps (drawn_hit hh ((le_idx_iff h a1 j).2 c) hj _)
    · exact drawn_hit hh (Nat.zero_le j) (by have := (lt_idx_iff h j).2 c.le; omega) _

/-! ## The sensors of the cases -/

/-- A sensor with the beams 0 and pi/2. Used in the cases below. -/
theorem quarter_sensor (R : ℝ) : ∃ l, LRF.new.run [.rangeLimits 0 R, .angleLimits 0 (Real.pi / 2), .numBeams 2] = .ok l ∧
    l.aMin = 0 ∧ l.aMax = Real.pi / 2 ∧ l.numBeams = 2 ∧ l.rangeMax = R ∧ Fine l ∧ spacing l = Real.pi / 2 := by
  have hp := Real.pi_pos
  obtain ⟨l, h1, h2, h3, h4, h5, h6⟩ := exists_sensor (a := 0) (b := Real.pi / 2) (R := R) (n := 2) (by norm_num)
    (by linarith) (by linarith) (by linarith) (by norm_num; linarith)
  exact ⟨l, h1, h2, h3, h4, h5, h6, by unfold spacing; rw [h2, h3, h4]; norm_num⟩

/-- A sensor with the beams -pi/2, 0 and pi/2. Used in the cases below. -/
theorem half_sensor (R : ℝ) : ∃ l,
    LRF.new.run [.rangeLimits 0 R, .angleLimits (-(Real.pi / 2)) (Real.pi / 2), .numBeams 3] = .ok l ∧
    l.aMin = -(Real.pi / 2) ∧ l.aMax = Real.pi / 2 ∧ l.numBeams = 3 ∧ l.rangeMax = R ∧ Fine l ∧
    spacing l = Real.pi / 2 := by
  have hp := Real.pi_pos
  obtain ⟨l, h1, h2, h3, h4, h5, h6⟩ := exists_sensor (a := -(Real.pi / 2)) (b := Real.pi / 2) (R := R) (n := 3)
    (by norm_num) (by linarith) (by linarith) (by linarith) (by norm_num; linarith)
  exact ⟨l, h1, h2, h3, h4, h5, h6, by unfold spacing; rw [h2, h3, h4]; norm_num⟩

/-- The step of half a turn in the sensors of the cases. -/
theorem half_two {l : LRF} (hs : spacing l = Real.pi / 2) : ⌊Real.pi / spacing l⌋ = 2 := by
  have := Real.pi_pos
  rw [hs, div_div_cancel₀ this.ne']
  norm_num

/-- The middle one of the beams -pi/2, 0, pi/2 and a line across it. -/
theorem half_draw {l : LRF} (h2 : l.aMin = -(Real.pi / 2)) (h4 : l.numBeams = 3) (h6 : Fine l)
    (h7 : spacing l = Real.pi / 2) {x y : ℝ} (hx : 0 < x) (hy : 0 < y) (hR : l.rangeMax ≤ 0 ∨ x ≤ l.rangeMax)
    (res : RenderResult) (hl : res.ranges.length = 3) :
    idx l (atan2 (-y) x) = 1 ∧ idx l (atan2 y x) = 2 ∧
    ∃ res', RenderResult.renderLine l res ⟨x, -y⟩ ⟨x, y⟩ = .ok res' ∧ res'.ranges.length = 3 ∧
      res'.ranges[1]? = (res.ranges[1]?).map fun r => combine r x := by
  have hp := Real.pi_pos
  obtain ⟨u1, u2⟩ := atan2_lower_right (x := x) (y := -y) hx (by linarith)
  obtain ⟨v1, v2⟩ := atan2_upper_right (x := x) (y := y) hx hy.le
  have i1 : idx l (atan2 (-y) x) = 1 := idx_eq (k := 0) h6 (by rw [h2]; norm_num; linarith) (by rw [h2, h7]; norm_num; linarith)
  have i2 : idx l (atan2 y x) = 2 := idx_eq (k := 1) h6 (by rw [h2, h7]; norm_num; linarith)
    (by rw [h2, h7]; norm_num; linarith)
  have hf : 0 < (⟨x, -y⟩ : Vec2).cross ⟨x, y⟩ := by
    simp only [Vec2.cross]
    nlinarith [mul_pos hx hy]
  have hb : beamAngle l.aMin l.aMax l.numBeams 1 = 0 := by rw [LRF.beamAngle_eq, h2, h7]; norm_num
  have hseg : AtParam ⟨x, -y⟩ ⟨x, y⟩ (1 / 2) ⟨x * (dir 0).x, x * (dir 0).y⟩ := by
    constructor
    · simp [dir]
    · simp [dir]; ring
  obtain ⟨n1, n2, n3, _⟩ := ccw_cases hf
  refine ⟨i1, i2, ?_⟩
  obtain ⟨r, e1, e2, e3⟩ := renderLine_cases h6 n1 n2 n3
    (near_of_hit n3 (α := 0) (d := x) ⟨_, by norm_num, by norm_num, hseg⟩ hx hR)
    (by rw [h2]; exact u1.le) (by rw [h2]; show _ ≤ atan2 y x; linarith) res (by rw [h4]; exact hl)
  refine ⟨r, e1, by rw [e2, h4], ?_⟩
  have hh := hit_at (LRF.ready_inv h6.ready).1 (j := 1) (by rw [h4]; norm_num) hf hx (by norm_num : (0 : ℝ) < 1 / 2)
    (by norm_num) (by rw [hb]; exact hseg)
  rw [e3]
  simp only [i1, i2, half_two h7, h4]
  congr 1
  funext z
  rw [if_pos (by norm_num), if_pos (by norm_num)]
  unfold drawn
  rw [if_pos (by decide), hh]

end Geo
