import Verif.Props.DepthCamera
import Verif.Props.Math

/-!
# Properties of the depth camera: depths, clipping, maps, rendering (C63, C64, C66, C67, C81, C82)
-/

namespace Geo

open Spec Raster

/-! ## C63 -/

/-- C63, in part: a pixel that is not the last of its row, and is not in column 0 unless the whole triangle is right of the
left border, gets a depth between the smallest and the largest depth of the corners. Missing: the last pixel of a row and
apexes left of the image, for which it is false. -/
theorem C63_between_partial (width height : ℕ) (culling : Bool) {p1 p2 p3 : Vec3} (tri : ℕ) (s1 : Small p1) (s2 : Small p2)
    (s3 : Small p3) {cs : List PixelCall} (h : triangle2D width height culling p1 p2 p3 tri = .ok cs) {lo hi : ℝ}
    (hlo : 0 < lo) (h1 : lo ≤ 1 / p1.z ∧ 1 / p1.z ≤ hi) (h2 : lo ≤ 1 / p2.z ∧ 1 / p2.z ≤ hi)
    (h3 : lo ≤ 1 / p3.z ∧ 1 / p3.z ≤ hi) {c : PixelCall} (hc : c ∈ cs)
    (hleft : 0 < c.x ∨ (0 ≤ p1.x ∧ 0 ≤ p2.x ∧ 0 ≤ p3.x))
    (hright : ∃ u d, (c.x : ℝ) + 1 ≤ u ∧ InSnapped p1 p2 p3 u c.y d) :
    ∃ r, c.depth = .fin r ∧ lo ≤ r ∧ r ≤ hi := by
  obtain ⟨cs', e1, e2, e3⟩ := triangle2D_ok width height culling tri s1 s2 s3
  rw [h] at e1
  cases e1
  have hw : ¬ (culling = true ∧ culls p1 p2 p3) ∧ InWindow width height p1 p2 p3 := by
    by_contra hcon
    rw [e2 (by tauto)] at hc
    simp at hc
  obtain ⟨-, -, -, hd⟩ := (e3 hw.1 hw.2).1 c hc
  obtain ⟨u', d', hu', hin'⟩ := hright
  rcases hd with ⟨hx0, -, u, d, hu, a, b, e, ha, hb, he, w1, w2, -⟩ | ⟨u, d, hv, g1, g2, -, g4⟩
  · rcases hleft with hl | ⟨l1, l2, l3⟩
    · omega
    · have := mul_nonneg ha l1
      have := mul_nonneg hb l2
      have := mul_nonneg he l3
      linarith
  · obtain ⟨a, b, e, ha, hb, he, w1, -, -, w4⟩ := g4 u' d' (by linarith) hin'
    have key : ∀ z : ℝ, lo ≤ 1 / z → 1 / z ≤ hi → 0 < z ∧ lo * z ≤ 1 ∧ 1 ≤ hi * z := by
      intro z hl hh
      have hz : 0 < z := by
        by_contra hn
        have := div_nonpos_of_nonneg_of_nonpos zero_le_one (not_lt.1 hn)
        linarith
      exact ⟨hz, (le_div_iff₀ hz).1 hl, (div_le_iff₀ hz).1 hh⟩
    obtain ⟨z1, a1, b1⟩ := key _ h1.1 h1.2
    obtain ⟨z2, a2, b2⟩ := key _ h2.1 h2.2
    obtain ⟨z3, a3, b3⟩ := key _ h3.1 h3.2
    have ub : lo * d ≤ 1 := by
      rw [w4]
      have := mul_le_mul_of_nonneg_left a1 ha
      have := mul_le_mul_of_nonneg_left a2 hb
      have := mul_le_mul_of_nonneg_left a3 he
      linarith
    have lb : 1 ≤ hi * d := by
      rw [w4]
      have := mul_le_mul_of_nonneg_left b1 ha
      have := mul_le_mul_of_nonneg_left b2 hb
      have := mul_le_mul_of_nonneg_left b3 he
      linarith
    have hhi : 0 < hi := by
      have : 0 < 1 / p1.z := by positivity
      linarith
    have hd : 0 < d := by
      by_contra hn
      have := mul_nonpos_of_nonneg_of_nonpos hhi.le (not_lt.1 hn)
      linarith
    refine ⟨1 / d, ?_, ?_, ?_⟩
    · rw [hv, Fl.div_fin _ hd.ne']
    · rw [le_div_iff₀ hd]
      exact ub
    · rw [div_le_iff₀ hd]
      exact lb

/-- A triangle at depths 1 to 4: the pixel (2, 1) is drawn with a depth in between. -/
example : ∃ cs, triangle2D 10 10 true ⟨1, 1, 1⟩ ⟨1, 5, 1 / 2⟩ ⟨6, 1, 1 / 4⟩ 0 = .ok cs ∧
    ∃ c ∈ cs, c.x = 2 ∧ c.y = 1 ∧ ∃ r, c.depth = .fin r ∧ 1 ≤ r ∧ r ≤ 4 := by
  have t1 : trunc 1 = 1 := by have := trunc_int 1; simpa using this
  have t5 : trunc 5 = 5 := by have := trunc_int 5; simpa using this
  have t2 : trunc 2 = 2 := by have := trunc_int 2; simpa using this
  have s1 : Small ⟨1, 1, 1⟩ := small_of (by norm_num [abs_lt]) (by norm_num [abs_lt])
  have s2 : Small ⟨1, 5, 1 / 2⟩ := small_of (by norm_num [abs_lt]) (by norm_num [abs_lt])
  have s3 : Small ⟨6, 1, 1 / 4⟩ := small_of (by norm_num [abs_lt]) (by norm_num [abs_lt])
  obtain ⟨cs, h1, h2⟩ := C80_coverage_partial 10 10 true 0 s1 s2 s3 (by norm_num) (by norm_num) (by norm_num)
  obtain ⟨c, hc, hx, hy⟩ := (h2 2 1).2 ⟨⟨by norm_num, by norm_num, by norm_num, by norm_num⟩, 2, _, t2,
    4 / 5, 0, 1 / 5, by norm_num, by norm_num, by norm_num, by norm_num, by norm_num, by norm_num [t1, t5], rfl⟩
  refine ⟨cs, h1, c, hc, hx, hy, C63_between_partial 10 10 true 0 s1 s2 s3 h1 one_pos (by norm_num) (by norm_num) (by norm_num)
    hc (.inl (by omega)) ⟨3, _, by rw [hx]; norm_num, 3 / 5, 0, 2 / 5, by norm_num, by norm_num, by norm_num, by norm_num,
      by norm_num, by rw [hy]; norm_num [t1, t5], rfl⟩⟩

/-- A triangle one pixel high and a fifth of a pixel wide, at depths 1 to 10, is drawn with a negative depth. -/
theorem thin_negative : Small ⟨9 / 10, 5, 1⟩ ∧ Small ⟨1, 11 / 2, 1 / 2⟩ ∧ Small ⟨11 / 10, 5, 1 / 10⟩ ∧
    ∃ cs, triangle2D 10 10 true ⟨9 / 10, 5, 1⟩ ⟨1, 11 / 2, 1 / 2⟩ ⟨11 / 10, 5, 1 / 10⟩ 0 = .ok cs ∧
      ∃ c ∈ cs, c.depth = .fin (-(2 / 7)) := by
  have t5 : trunc 5 = 5 := by have := trunc_int 5; simpa using this
  have t6 : trunc (11 / 2) = 5 := by
    rw [trunc_eq_floor (by norm_num), Int.floor_eq_iff]
    norm_num
  have t0 : trunc (9 / 10) = 0 := by
    rw [trunc_eq_floor (by norm_num), Int.floor_eq_iff]
    norm_num
  have t1 : trunc 1 = 1 := by have := trunc_int 1; simpa using this
  have t2 : trunc (11 / 10) = 1 := by
    rw [trunc_eq_floor (by norm_num), Int.floor_eq_iff]
    norm_num
  have s1 : Small ⟨9 / 10, 5, 1⟩ := small_of (by norm_num [abs_lt]) (by norm_num [abs_lt])
  have s2 : Small ⟨1, 11 / 2, 1 / 2⟩ := small_of (by norm_num [abs_lt]) (by norm_num [abs_lt])
  have s3 : Small ⟨11 / 10, 5, 1 / 10⟩ := small_of (by norm_num [abs_lt]) (by norm_num [abs_lt])
  have hcull : ¬ (true = true ∧ culls ⟨9 / 10, 5, 1⟩ ⟨1, 11 / 2, 1 / 2⟩ ⟨11 / 10, 5, 1 / 10⟩) := by
    unfold culls
    norm_num
  have hsort : sort Vec3.x ⟨9 / 10, 5, 1⟩ ⟨1, 11 / 2, 1 / 2⟩ ⟨11 / 10, 5, 1 / 10⟩ =
      (⟨9 / 10, 5, 1⟩, ⟨1, 11 / 2, 1 / 2⟩, ⟨11 / 10, 5, 1 / 10⟩) := by
    unfold sort
    norm_num
  refine ⟨s1, s2, s3, ?_⟩
  have c1 := small_cast s1
  have c2 := small_cast s2
  have c3 := small_cast s3
  simp only [t5, t6, t0, t1, t2] at c1 c2 c3
  have e0 : castInt (9 / 10) = .ok 0 := c1.1
  have e1 : castInt (11 / 10) = .ok 1 := c3.1
  unfold triangle2D
  rw [if_neg hcull]
  simp only [c1.1, c1.2, c2.1, c2.2, c3.1, bind, Except.bind, pure, Except.pure]
  rw [if_pos (by decide), if_pos (by decide), hsort]
  simp only [c1.2, c2.2]
  have hr := row_right (width := 10) (y := 5) (Fl.fin 1) (Fl.fin (1 / 10)) 0 (by norm_num) e0 e1
  refine ⟨_, part_one (by norm_num) (by norm_num) hr, ⟨1, 5, .fin (-(2 / 7)), 0⟩, ?_, rfl⟩
  rw [Fl.sub_fin, Fl.sub_fin, Fl.div_fin _ (by norm_num)]
  refine (mem_pixels _ _ _).2 ⟨1, by norm_num, ?_⟩
  rw [iter_fin, Fl.div_fin _ (by norm_num)]
  norm_num

/-- C63 fails: a triangle one pixel high and a fifth of a pixel wide, at depths 1 to 10, is drawn with a negative depth. -/
theorem C63_negative_wrong : ∃ p1 p2 p3 : Vec3, Small p1 ∧ Small p2 ∧ Small p3 ∧ 0 < p1.z ∧ 0 < p2.z ∧ 0 < p3.z ∧
    ∃ cs, triangle2D 10 10 true p1 p2 p3 0 = .ok cs ∧ ∃ c ∈ cs, c.depth = .fin (-(2 / 7)) := by
  obtain ⟨s1, s2, s3, h⟩ := thin_negative
  exact ⟨_, _, _, s1, s2, s3, by norm_num, by norm_num, by norm_num, h⟩

/-- C63 fails: a corner left of the image by less than a pixel writes NaN, which no later pixel replaces. -/
theorem C63_nan_wrong : ∃ p1 p2 p3 : Vec3, Small p1 ∧ Small p2 ∧ Small p3 ∧ 0 < p1.z ∧ 0 < p2.z ∧ 0 < p3.z ∧
    ∃ cs, triangle2D 10 1 true p1 p2 p3 0 = .ok cs ∧ ∃ r, DefaultResult.sink.pixels cs (blank 10 1) = .ok r ∧
      ∀ cs', (∀ c ∈ cs', InImage 10 1 c.x c.y) →
        ∃ r', DefaultResult.sink.pixels cs' r = .ok r' ∧ r'.image.at' 0 0 = .nan := by
  have t0 : trunc 0 = 0 := by have := trunc_int 0; simpa using this
  have t2 : trunc 2 = 2 := by have := trunc_int 2; simpa using this
  have t3 : trunc 3 = 3 := by have := trunc_int 3; simpa using this
  have t4 : trunc 4 = 4 := by have := trunc_int 4; simpa using this
  have th : trunc (-1 / 2) = 0 := by
    rw [trunc_eq_ceil (by norm_num), Int.ceil_eq_iff]
    norm_num
  have s1 : Small ⟨-1 / 2, 0, 1⟩ := small_of (by norm_num [abs_lt]) (by norm_num [abs_lt])
  have s2 : Small ⟨0, 3, 1⟩ := small_of (by norm_num [abs_lt]) (by norm_num [abs_lt])
  have s3 : Small ⟨4, 2, 1⟩ := small_of (by norm_num [abs_lt]) (by norm_num [abs_lt])
  have hcull : ¬ (true = true ∧ culls ⟨-1 / 2, 0, 1⟩ ⟨0, 3, 1⟩ ⟨4, 2, 1⟩) := by
    unfold culls
    norm_num
  have hsort : sort Vec3.y ⟨-1 / 2, 0, 1⟩ ⟨0, 3, 1⟩ ⟨4, 2, 1⟩ = (⟨-1 / 2, 0, 1⟩, ⟨4, 2, 1⟩, ⟨0, 3, 1⟩) := by
    unfold sort
    norm_num
  have c1 := small_cast s1
  have c2 := small_cast s2
  have c3 := small_cast s3
  simp only [t0, t2, t3, t4, th] at c1 c2 c3
  have e0 : castInt (-1 / 2) = .ok 0 := c1.1
  have hdraw : triangle2D 10 1 true ⟨-1 / 2, 0, 1⟩ ⟨0, 3, 1⟩ ⟨4, 2, 1⟩ 0 = .ok [⟨0, 0, .nan, 0⟩] := by
    unfold triangle2D
    rw [if_neg hcull]
    simp only [c1.1, c1.2, c2.2, c3.1, c3.2, bind, Except.bind, pure, Except.pure]
    rw [if_pos (by decide), if_neg (by decide), hsort]
    simp only [c1.2, c2.2, c3.2]
    have i1 : ∀ n : ℤ, -10 < n → n < 10 → intOp n = .ok n := fun n h1 h2 => by
      rw [intOp, if_pos (by omega)]
    rw [i1 (2 - 0) (by norm_num) (by norm_num), i1 (3 - 2) (by norm_num) (by norm_num),
      i1 (3 - 0) (by norm_num) (by norm_num)]
    have hr := row_left (width := 10) (y := 0) (Fl.fin 1) (Fl.fin 1) 0 (by norm_num : (-1 / 2 : ℝ) < 0) e0
    simp only
    rw [part_one (by norm_num) (by norm_num) hr, part_none (by norm_num) (by norm_num)]
    simp [pixels, Fl.sub, Fl.neg, Fl.add, Fl.div, Fl.inf, Fl.mul]
  refine ⟨⟨-1 / 2, 0, 1⟩, ⟨0, 3, 1⟩, ⟨4, 2, 1⟩, s1, s2, s3, by norm_num, by norm_num, by norm_num, _, hdraw, ?_⟩
  have hi0 : InImage (blank 10 1).image.cols (blank 10 1).image.rows 0 0 := by
    unfold InImage blank DefaultResult.new
    norm_num
  obtain ⟨r, g1, g2, g3⟩ := DefaultResult.pixel_ok (c := ⟨0, 0, .nan, 0⟩) hi0 (blank_fit 10 1)
  have hnan : r.image.at' 0 0 = .nan := by
    rw [(g3 0 0).1, if_pos ⟨.inl (by simp [blank, DefaultResult.new]), rfl, rfl⟩]
  refine ⟨r, ?_, ?_⟩
  · show (DefaultResult.pixel (blank 10 1) ⟨0, 0, .nan, 0⟩ >>= fun s => .ok s) = _
    rw [g1]
    rfl
  have key : ∀ (cs' : List PixelCall) (r : DefaultResult), r.Fit → r.image.cols = 10 → r.image.rows = 1 →
      r.image.at' 0 0 = .nan → (∀ c ∈ cs', InImage 10 1 c.x c.y) →
      ∃ r', DefaultResult.sink.pixels cs' r = .ok r' ∧ r'.image.at' 0 0 = .nan := by
    intro cs'
    induction cs' with
    | nil => exact fun r _ _ _ h _ => ⟨r, rfl, h⟩
    | cons c cs ih =>
      intro r hf hc hr h hin
      obtain ⟨r1, f1, f2, f3⟩ := DefaultResult.pixel_ok (r := r) (c := c) (by
        rw [hc, hr]
        exact hin c List.mem_cons_self) hf
      obtain ⟨r2, k1, k2⟩ := ih r1 (f2.fit hf) (f2.cols.trans hc) (f2.rows.trans hr) (by
        rw [(f3 0 0).1, if_neg, h]
        rintro ⟨ht, ha⟩
        unfold DefaultResult.Takes at ht
        rw [show c.y.toNat = 0 by have := ha.2; omega, show c.x.toNat = 0 by have := ha.1; omega, h] at ht
        rcases ht with ht | ht
        · simp [Fl.isZero] at ht
        · cases hd : c.depth <;> simp [hd, Fl.lt] at ht) (fun d hd => hin d (List.mem_cons_of_mem _ hd))
      refine ⟨r2, ?_, k2⟩
      show (DefaultResult.pixel r c >>= fun s => DefaultResult.sink.pixels cs s) = _
      rw [f1]
      exact k1
  exact fun cs' hin => key cs' r (g2.fit (blank_fit 10 1)) g2.cols g2.rows hnan hin

/-! ## C81 -/

theorem weighted_pos {a b e x y z : ℝ} (ha : 0 ≤ a) (hb : 0 ≤ b) (he : 0 ≤ e) (h : a + b + e = 1) (hx : 0 < x) (hy : 0 < y)
    (hz : 0 < z) : 0 < a * x + b * y + e * z := by
  have m1 := mul_nonneg ha hx.le
  have m2 := mul_nonneg hb hy.le
  have m3 := mul_nonneg he hz.le
  rcases ha.eq_or_lt with q | q
  · rcases hb.eq_or_lt with q' | q'
    · have : e = 1 := by linarith
      rw [this] at *
      linarith
    · have := mul_pos q' hy
      linarith
  · have := mul_pos q hx
    linarith

/-- C81, in part: a pixel that is not the last of its row, and is not in column 0 unless the whole triangle is right of the
left border, shows a point of the triangle: the point has the depth of the pixel and is seen in its column and less than a row
off, and in its row if no corner is above the image. Missing: the other pixels (see `C81_negative_wrong`, `C63_nan_wrong`). -/
theorem C81_visible_partial (cam : Camera) (width height : ℕ) (culling : Bool) {P1 P2 P3 : Vec3} (tri : ℕ) (h1 : P1.z < 0)
    (h2 : P2.z < 0) (h3 : P3.z < 0) (s1 : Small (corner cam P1)) (s2 : Small (corner cam P2)) (s3 : Small (corner cam P3))
    {cs : List PixelCall}
    (h : triangle2D width height culling (corner cam P1) (corner cam P2) (corner cam P3) tri = .ok cs)
    {c : PixelCall} (hc : c ∈ cs)
    (hleft : 0 < c.x ∨ (0 ≤ (corner cam P1).x ∧ 0 ≤ (corner cam P2).x ∧ 0 ≤ (corner cam P3).x))
    (hright : ∃ u d, (c.x : ℝ) + 1 ≤ u ∧ InSnapped (corner cam P1) (corner cam P2) (corner cam P3) u c.y d) :
    ∃ Q, OnTriangle P1 P2 P3 Q ∧ c.depth = .fin (-Q.z) ∧ (c.x : ℝ) ≤ (cam.project3Dto2D Q).x ∧
      (cam.project3Dto2D Q).x < c.x + 1 ∧ |(cam.project3Dto2D Q).y - c.y| < 1 ∧
      (0 ≤ (corner cam P1).y ∧ 0 ≤ (corner cam P2).y ∧ 0 ≤ (corner cam P3).y → (c.y : ℝ) ≤ (cam.project3Dto2D Q).y) := by
  obtain ⟨cs', e1, e2, e3⟩ := triangle2D_ok width height culling tri s1 s2 s3
  rw [h] at e1
  cases e1
  have hw : ¬ (culling = true ∧ culls (corner cam P1) (corner cam P2) (corner cam P3)) ∧
      InWindow width height (corner cam P1) (corner cam P2) (corner cam P3) := by
    by_contra hcon
    rw [e2 (by tauto)] at hc
    simp at hc
  obtain ⟨-, -, -, hd⟩ := (e3 hw.1 hw.2).1 c hc
  obtain ⟨u', d', hu', hin'⟩ := hright
  rcases hd with ⟨hx0, -, u, d, hu, a, b, e, ha, hb, he, w1, w2, -⟩ | ⟨u, d, hv, g1, g2, -, g4⟩
  · rcases hleft with hl | ⟨l1, l2, l3⟩
    · omega
    · have := mul_nonneg ha l1
      have := mul_nonneg hb l2
      have := mul_nonneg he l3
      linarith
  · obtain ⟨a, b, e, ha, hb, he, w1, w2, w3, w4⟩ := g4 u' d' (by linarith) hin'
    have z1 : (corner cam P1).z = 1 / -P1.z := rfl
    have z2 : (corner cam P2).z = 1 / -P2.z := rfl
    have z3 : (corner cam P3).z = 1 / -P3.z := rfl
    have k1 : 0 < 1 / -P1.z := by have := neg_pos.2 h1; positivity
    have k2 : 0 < 1 / -P2.z := by have := neg_pos.2 h2; positivity
    have k3 : 0 < 1 / -P3.z := by have := neg_pos.2 h3; positivity
    rw [z1, z2, z3] at w4
    have hd : 0 < d := by
      rw [w4]
      exact weighted_pos ha hb he w1 k1 k2 k3
    have hx : ∀ P : Vec3, (corner cam P).x = (cam.fx * P.x + cam.Tx) * (1 / -P.z) + cam.cx := fun P => by
      show (cam.fx * P.x + cam.Tx) / -P.z + cam.cx = _
      ring
    have hy : ∀ P : Vec3, (corner cam P).y = (cam.fy * -P.y + cam.Ty) * (1 / -P.z) + cam.cy := fun P => by
      show (cam.fy * -P.y + cam.Ty) / -P.z + cam.cy = _
      ring
    have j1 : 1 / -P1.z * P1.z = -1 := by
      have := h1.ne
      field_simp
    have j2 : 1 / -P2.z * P2.z = -1 := by
      have := h2.ne
      field_simp
    have j3 : 1 / -P3.z * P3.z = -1 := by
      have := h3.ne
      field_simp
    rw [hx, hx, hx] at w2
    let v := a * (corner cam P1).y + b * (corner cam P2).y + e * (corner cam P3).y
    have hvdef : v = a * (corner cam P1).y + b * (corner cam P2).y + e * (corner cam P3).y := rfl
    have hvy := hvdef
    rw [hy, hy, hy] at hvy
    generalize 1 / -P1.z = k1' at *
    generalize 1 / -P2.z = k2' at *
    generalize 1 / -P3.z = k3' at *
    let Q : Vec3 := ⟨(a * k1' * P1.x + b * k2' * P2.x + e * k3' * P3.x) / d,
      (a * k1' * P1.y + b * k2' * P2.y + e * k3' * P3.y) / d, -(1 / d)⟩
    have hQ : Q = ⟨(a * k1' * P1.x + b * k2' * P2.x + e * k3' * P3.x) / d,
      (a * k1' * P1.y + b * k2' * P2.y + e * k3' * P3.y) / d, -(1 / d)⟩ := rfl
    have px : (cam.project3Dto2D Q).x = u := by
      rw [hQ, w2]
      show (cam.fx * ((a * k1' * P1.x + b * k2' * P2.x + e * k3' * P3.x) / d) + cam.Tx) / - -(1 / d) + cam.cx = _
      field_simp
      linear_combination cam.Tx * w4 - cam.cx * w1
    have py : (cam.project3Dto2D Q).y = v := by
      rw [hQ, hvy]
      show (cam.fy * -((a * k1' * P1.y + b * k2' * P2.y + e * k3' * P3.y) / d) + cam.Ty) / - -(1 / d) + cam.cy = _
      field_simp
      linear_combination cam.Ty * w4 - cam.cy * w1
    have tr : ∀ y : ℝ, |y - trunc y| < 1 ∧ (0 ≤ y → (trunc y : ℝ) ≤ y) := by
      intro y
      rcases le_or_gt 0 y with h | h
      · rw [trunc_eq_floor h]
        have f1 := Int.floor_le y
        have f2 := Int.lt_floor_add_one y
        exact ⟨by rw [abs_lt]; constructor <;> linarith, fun _ => f1⟩
      · rw [trunc_eq_ceil h]
        have f1 := Int.le_ceil y
        have f2 := Int.ceil_lt_add_one y
        exact ⟨by rw [abs_lt]; constructor <;> linarith, fun h' => absurd h' (not_le.2 h)⟩
    refine ⟨Q, ⟨a * k1' / d, b * k2' / d, e * k3' / d, ?_, ?_, ?_, ?_, ?_, ?_, ?_⟩, ?_, by rw [px]; exact g1,
      by rw [px]; exact g2, ?_, ?_⟩
    · exact div_nonneg (mul_nonneg ha k1.le) hd.le
    · exact div_nonneg (mul_nonneg hb k2.le) hd.le
    · exact div_nonneg (mul_nonneg he k3.le) hd.le
    · field_simp
      linarith
    · rw [hQ]
      field_simp
    · rw [hQ]
      field_simp
    · rw [hQ]
      field_simp
      linear_combination w1 - a * j1 - b * j2 - e * j3
    · rw [hv, Fl.div_fin _ hd.ne', hQ]
      simp
    · rw [py, hvdef, w3]
      obtain ⟨a1, a2⟩ := abs_lt.1 (tr (corner cam P1).y).1
      obtain ⟨b1, b2⟩ := abs_lt.1 (tr (corner cam P2).y).1
      obtain ⟨c1, c2⟩ := abs_lt.1 (tr (corner cam P3).y).1
      have q1 := weighted_pos ha hb he w1 (by linarith : 0 < 1 - ((corner cam P1).y - trunc (corner cam P1).y))
        (by linarith : 0 < 1 - ((corner cam P2).y - trunc (corner cam P2).y))
        (by linarith : 0 < 1 - ((corner cam P3).y - trunc (corner cam P3).y))
      have q2 := weighted_pos ha hb he w1 (by linarith : 0 < 1 + ((corner cam P1).y - trunc (corner cam P1).y))
        (by linarith : 0 < 1 + ((corner cam P2).y - trunc (corner cam P2).y))
        (by linarith : 0 < 1 + ((corner cam P3).y - trunc (corner cam P3).y))
      rw [abs_lt]
      constructor <;> linarith
    · rintro ⟨n1, n2, n3⟩
      rw [py, hvdef, w3]
      have q1 := mul_le_mul_of_nonneg_left ((tr (corner cam P1).y).2 n1) ha
      have q2 := mul_le_mul_of_nonneg_left ((tr (corner cam P2).y).2 n2) hb
      have q3 := mul_le_mul_of_nonneg_left ((tr (corner cam P3).y).2 n3) he
      linarith

/-- The same triangle in space: the pixel (2, 1) shows a point of it. -/
example : ∃ cs, triangle2D 10 10 true (corner ⟨1, 1, 0, 0, 0, 0, 10, 10⟩ ⟨1, -1, -1⟩)
      (corner ⟨1, 1, 0, 0, 0, 0, 10, 10⟩ ⟨2, -10, -2⟩) (corner ⟨1, 1, 0, 0, 0, 0, 10, 10⟩ ⟨24, -4, -4⟩) 0 = .ok cs ∧
    ∃ c ∈ cs, c.x = 2 ∧ c.y = 1 ∧ ∃ Q, OnTriangle ⟨1, -1, -1⟩ ⟨2, -10, -2⟩ ⟨24, -4, -4⟩ Q ∧ c.depth = .fin (-Q.z) := by
  have t1 : trunc 1 = 1 := by have := trunc_int 1; simpa using this
  have t5 : trunc 5 = 5 := by have := trunc_int 5; simpa using this
  have t2 : trunc 2 = 2 := by have := trunc_int 2; simpa using this
  have k1 : corner ⟨1, 1, 0, 0, 0, 0, 10, 10⟩ ⟨1, -1, -1⟩ = ⟨1, 1, 1⟩ := by ext <;> norm_num [corner, Camera.project3Dto2D]
  have k2 : corner ⟨1, 1, 0, 0, 0, 0, 10, 10⟩ ⟨2, -10, -2⟩ = ⟨1, 5, 1 / 2⟩ := by
    ext <;> norm_num [corner, Camera.project3Dto2D]
  have k3 : corner ⟨1, 1, 0, 0, 0, 0, 10, 10⟩ ⟨24, -4, -4⟩ = ⟨6, 1, 1 / 4⟩ := by
    ext <;> norm_num [corner, Camera.project3Dto2D]
  have s1 : Small ⟨1, 1, 1⟩ := small_of (by norm_num [abs_lt]) (by norm_num [abs_lt])
  have s2 : Small ⟨1, 5, 1 / 2⟩ := small_of (by norm_num [abs_lt]) (by norm_num [abs_lt])
  have s3 : Small ⟨6, 1, 1 / 4⟩ := small_of (by norm_num [abs_lt]) (by norm_num [abs_lt])
  obtain ⟨cs, h1, h2⟩ := C80_coverage_partial 10 10 true 0 s1 s2 s3 (by norm_num) (by norm_num) (by norm_num)
  obtain ⟨c, hc, hx, hy⟩ := (h2 2 1).2 ⟨⟨by norm_num, by norm_num, by norm_num, by norm_num⟩, 2, _, t2,
    4 / 5, 0, 1 / 5, by norm_num, by norm_num, by norm_num, by norm_num, by norm_num, by norm_num [t1, t5], rfl⟩
  refine ⟨cs, by rw [k1, k2, k3]; exact h1, c, hc, hx, hy, ?_⟩
  obtain ⟨Q, q1, q2, -⟩ := C81_visible_partial ⟨1, 1, 0, 0, 0, 0, 10, 10⟩ 10 10 true (P1 := ⟨1, -1, -1⟩) (P2 := ⟨2, -10, -2⟩)
    (P3 := ⟨24, -4, -4⟩) 0 (by norm_num) (by norm_num) (by norm_num) (by rw [k1]; exact s1) (by rw [k2]; exact s2)
    (by rw [k3]; exact s3) (by rw [k1, k2, k3]; exact h1) hc (.inl (by omega)) ⟨3, (3 / 5 : ℝ) * 1 + 0 * (1 / 2) + 2 / 5 * (1 / 4),
      by rw [hx]; norm_num, 3 / 5, 0, 2 / 5, by norm_num, by norm_num, by norm_num, by norm_num,
      by rw [k1, k2, k3]; norm_num, by rw [k1, k2, k3, hy]; norm_num [t1, t5], by rw [k1, k2, k3]⟩
  exact ⟨Q, q1, q2⟩

/-- C81 fails for thin triangles: of a triangle in front of the camera a pixel is drawn with a depth that no point of the
triangle has. -/
theorem C81_negative_wrong : ∃ (cam : Camera) (P1 P2 P3 : Vec3), P1.z < 0 ∧ P2.z < 0 ∧ P3.z < 0 ∧ Small (corner cam P1) ∧
    Small (corner cam P2) ∧ Small (corner cam P3) ∧
    ∃ cs, triangle2D 10 10 true (corner cam P1) (corner cam P2) (corner cam P3) 0 = .ok cs ∧
      ∃ c ∈ cs, ¬ ∃ Q, OnTriangle P1 P2 P3 Q ∧ c.depth = .fin (-Q.z) := by
  obtain ⟨s1, s2, s3, cs, h, c, hc, hd⟩ := thin_negative
  have k1 : corner ⟨1, 1, 0, 0, 0, 0, 10, 10⟩ ⟨9 / 10, -5, -1⟩ = ⟨9 / 10, 5, 1⟩ := by
    ext <;> norm_num [corner, Camera.project3Dto2D]
  have k2 : corner ⟨1, 1, 0, 0, 0, 0, 10, 10⟩ ⟨2, -11, -2⟩ = ⟨1, 11 / 2, 1 / 2⟩ := by
    ext <;> norm_num [corner, Camera.project3Dto2D]
  have k3 : corner ⟨1, 1, 0, 0, 0, 0, 10, 10⟩ ⟨11, -50, -10⟩ = ⟨11 / 10, 5, 1 / 10⟩ := by
    ext <;> norm_num [corner, Camera.project3Dto2D]
  refine ⟨⟨1, 1, 0, 0, 0, 0, 10, 10⟩, ⟨9 / 10, -5, -1⟩, ⟨2, -11, -2⟩, ⟨11, -50, -10⟩, by norm_num, by norm_num, by norm_num,
    by rw [k1]; exact s1, by rw [k2]; exact s2, by rw [k3]; exact s3, cs, by rw [k1, k2, k3]; exact h, c, hc, ?_⟩
  rintro ⟨Q, ⟨a, b, e, ha, hb, he, hs, -, -, hz⟩, hQ⟩
  rw [hd, Fl.fin.injEq] at hQ
  simp only at hz
  linarith

/-! ## C64 -/

/-- C64: if some corner is in front of the near plane, the clipped triangles cover exactly the points of the triangle at
`z ≤ -0.1`; otherwise nothing is drawn. Their corners are corners of the triangle in front of the plane, or points of the
triangle on it, and their normals point where the normal of the triangle points. -/
theorem C64_clip (p1 p2 p3 : Vec3) :
    (p1.z < -1 / 10 ∨ p2.z < -1 / 10 ∨ p3.z < -1 / 10 → ∀ q,
      (∃ t ∈ clipped p1 p2 p3, OnTriangle t.1 t.2.1 t.2.2 q) ↔ OnTriangle p1 p2 p3 q ∧ q.z ≤ -1 / 10) ∧
    (¬ (p1.z < -1 / 10 ∨ p2.z < -1 / 10 ∨ p3.z < -1 / 10) → clipped p1 p2 p3 = []) ∧
    (clipped p1 p2 p3).length ≤ 2 ∧
    (∀ t ∈ clipped p1 p2 p3, (∃ k, 0 ≤ k ∧ normalOf t.1 t.2.1 t.2.2 =
        ⟨k * (normalOf p1 p2 p3).x, k * (normalOf p1 p2 p3).y, k * (normalOf p1 p2 p3).z⟩) ∧
      ∀ q, q = t.1 ∨ q = t.2.1 ∨ q = t.2.2 →
        ((q = p1 ∨ q = p2 ∨ q = p3) ∧ q.z < -1 / 10) ∨ (OnTriangle p1 p2 p3 q ∧ q.z = -1 / 10)) := by
  have hs := clipped_spec p1 p2 p3
  rw [show nearClip = -1 / 10 from rfl] at hs
  refine ⟨hs.1, hs.2.1, ?_, fun t ht => ⟨hs.2.2 t ht, fun q hq => ?_⟩⟩
  · rcases clipped_cases p1 p2 p3 with ⟨-, -, -, h⟩ | ⟨-, -, -, h⟩ | ⟨v, w1, w2, -, -, -, -, h⟩ | ⟨v0, v1, w, -, -, -, -, h⟩ <;>
      rw [h] <;> simp
  · have on := (clipped_corner ht hq).1
    have hclip : ∀ v w : Vec3, (clip v w).z = -1 / 10 := fun _ _ => rfl
    rcases clipped_cases p1 p2 p3 with ⟨-, -, -, h⟩ | ⟨a, b, c, h⟩ | ⟨v, w1, w2, hv, a, -, -, h⟩ | ⟨v0, v1, w, hv, a, b, -, h⟩
    · rw [h] at ht
      simp at ht
    · rw [h, List.mem_singleton] at ht
      subst ht
      left
      rcases hq with rfl | rfl | rfl
      · exact ⟨.inl rfl, a⟩
      · exact ⟨.inr (.inl rfl), b⟩
      · exact ⟨.inr (.inr rfl), c⟩
    · rw [h, List.mem_singleton] at ht
      subst ht
      rcases hq with rfl | rfl | rfl
      · left
        refine ⟨?_, a⟩
        simp only [Prod.mk.injEq] at hv
        tauto
      · exact .inr ⟨on, hclip _ _⟩
      · exact .inr ⟨on, hclip _ _⟩
    · have o : (v0 = p1 ∨ v0 = p2 ∨ v0 = p3) ∧ (v1 = p1 ∨ v1 = p2 ∨ v1 = p3) := by
        simp only [Prod.mk.injEq] at hv
        tauto
      rw [h, List.mem_cons, List.mem_singleton] at ht
      rcases ht with rfl | rfl
      · rcases hq with rfl | rfl | rfl
        · exact .inl ⟨o.1, a⟩
        · exact .inl ⟨o.2, b⟩
        · exact .inr ⟨on, hclip _ _⟩
      · rcases hq with rfl | rfl | rfl
        · exact .inr ⟨on, hclip _ _⟩
        · exact .inl ⟨o.2, b⟩
        · exact .inr ⟨on, hclip _ _⟩

/-- A triangle with one corner behind the camera: the point (0, 0, -1) is still covered. -/
example : ∃ t ∈ clipped ⟨-1, -1, -2⟩ ⟨1, -1, -2⟩ ⟨0, 2, 1⟩, OnTriangle t.1 t.2.1 t.2.2 ⟨0, 0, -1⟩ :=
  ((C64_clip ⟨-1, -1, -2⟩ ⟨1, -1, -2⟩ ⟨0, 2, 1⟩).1 (by norm_num) ⟨0, 0, -1⟩).2
    ⟨⟨1 / 3, 1 / 3, 1 / 3, by norm_num, by norm_num, by norm_num, by norm_num, by norm_num, by norm_num, by norm_num⟩, by norm_num⟩

/-! ## C66 -/

/-- C66, in part: calls with images of non-increasing height, from maps with columns at least that high (for instance empty
maps), never write outside the maps. Missing: images of growing height, for which it is false. -/
theorem C66_history_partial (c : Camera) {K : ℝ} (hc : Moderate c K) : ∀ (xs : List RasterCall) (pm : List (List ℕ))
    (tm : List (List ℤ)), (∀ x ∈ xs, Valid x.mesh.points x.mesh.tris ∧ Near x.mesh x.pose K) →
    xs.Pairwise (fun x y => y.image.rows ≤ x.image.rows) →
    (∀ x ∈ xs, (∀ col ∈ pm, x.image.rows ≤ col.length) ∧ (∀ col ∈ tm, x.image.rows ≤ col.length)) →
    ∃ r, rasterizeAll c xs pm tm = .ok r
  | [], pm, tm, _, _, _ => ⟨_, rfl⟩
  | x :: xs, pm, tm, hv, hs, hm => by
    obtain ⟨v1, v2⟩ := hv x List.mem_cons_self
    obtain ⟨m1, m2⟩ := hm x List.mem_cons_self
    obtain ⟨r, h1, h2⟩ := rasterize_ok (pointer := x.pointer) hc v1 v2 m1 m2
    rw [List.pairwise_cons] at hs
    obtain ⟨r', h3⟩ := C66_history_partial c hc xs r.pointerMap r.triangleMap (fun y hy => hv y (List.mem_cons_of_mem _ hy))
      hs.2 (fun y hy => by
        obtain ⟨k1, k2⟩ := hm y (List.mem_cons_of_mem _ hy)
        obtain ⟨n1, n2⟩ := DefaultResult.new_cols (pointer := x.pointer) (hs.1 y hy) k1 k2
        exact ⟨DefaultResult.cols_lengths h2.ptr n1, DefaultResult.cols_lengths h2.tri n2⟩)
    refine ⟨r', ?_⟩
    simp only [rasterizeAll, h1, bind, Except.bind]
    exact h3

/-- A mesh of one triangle seen in the second row of the image. Used in the cases below. -/
noncomputable def shard : Mesh := ⟨[⟨0, -1, -1⟩, ⟨0, -3 / 2, -1⟩, ⟨3 / 2, -1, -1⟩], [⟨0, 1, 2⟩], [], 0, 0⟩

/-- The mesh of the cases is one that can be built. -/
theorem shard_good : GoodMesh shard := by
  refine ⟨⟨[.addPoint ⟨0, -1, -1⟩, .addPoint ⟨0, -3 / 2, -1⟩, .addPoint ⟨3 / 2, -1, -1⟩, .addTriangle 0 1 2], rfl⟩, ?_⟩
  intro t ht
  simp only [shard, List.mem_singleton] at ht
  subst ht
  decide

/-- The camera of the cases. -/
def unitCamera : Camera := ⟨1, 1, 0, 0, 0, 0, 2, 2⟩

theorem unitCamera_moderate : Moderate unitCamera 2 := by
  unfold Moderate unitCamera
  norm_num

theorem shard_near : Near shard ⟨Mat3.identity, ⟨0, 0, 0⟩⟩ 2 := by
  intro p hp
  simp only [shard, List.mem_cons, List.not_mem_nil, or_false] at hp
  rcases hp with rfl | rfl | rfl <;> norm_num [Transform3.apply, Mat3.mulVec, Mat3.identity, abs_le]

example : ∃ r, rasterizeAll unitCamera [⟨shard, ⟨Mat3.identity, ⟨0, 0, 0⟩⟩, ⟨2, 2, fun _ _ => .fin 0⟩, 1⟩,
    ⟨shard, ⟨Mat3.identity, ⟨0, 0, 0⟩⟩, ⟨4, 2, fun _ _ => .fin 0⟩, 2⟩,
    ⟨shard, ⟨Mat3.identity, ⟨0, 0, 0⟩⟩, ⟨3, 1, fun _ _ => .fin 0⟩, 3⟩] [] [] = .ok r :=
  C66_history_partial unitCamera unitCamera_moderate _ _ _ (by
    intro x hx
    simp only [List.mem_cons, List.not_mem_nil, or_false] at hx
    rcases hx with rfl | rfl | rfl <;> exact ⟨shard_good.2, shard_near⟩) (by simp) (by simp)

/-- C66 fails: from empty maps, an image of one row followed by an image of two rows; the second call writes outside the
triangle map, whose columns are not made longer. -/
theorem C66_history_wrong : Valid shard.points shard.tris ∧
    (∃ r, rasterizeAll unitCamera [⟨shard, ⟨Mat3.identity, ⟨0, 0, 0⟩⟩, ⟨2, 1, fun _ _ => .fin 0⟩, 0⟩] [] [] = .ok r) ∧
    rasterizeAll unitCamera [⟨shard, ⟨Mat3.identity, ⟨0, 0, 0⟩⟩, ⟨2, 1, fun _ _ => .fin 0⟩, 0⟩,
      ⟨shard, ⟨Mat3.identity, ⟨0, 0, 0⟩⟩, ⟨2, 2, fun _ _ => .fin 0⟩, 0⟩] [] [] = .error .ub := by
  obtain ⟨r, h1, h2⟩ := rasterize_ok (image := ⟨2, 1, fun _ _ => .fin 0⟩) (pointer := 0) (pm := []) (tm := [])
    unitCamera_moderate shard_good.2 shard_near (by simp) (by simp)
  refine ⟨shard_good.2, ⟨(r.pointerMap, r.triangleMap), by simp only [rasterizeAll, h1, bind, Except.bind]⟩, ?_⟩
  simp only [rasterizeAll, h1, bind, Except.bind]
  suffices h : rasterize unitCamera shard ⟨Mat3.identity, ⟨0, 0, 0⟩⟩ ⟨2, 2, fun _ _ => .fin 0⟩ r.pointerMap 0 r.triangleMap =
      .error .ub by rw [h]
  have hl : r.triangleMap.map List.length = [1, 1] := by
    rw [h2.tri]
    decide
  unfold rasterize
  rw [render_eq_loop _ _ _ _ (by rw [Rigid, Orthogonal, M_identity]; simp) shard_good]
  have hpts : shard.points.map (fun p => (⟨Mat3.identity, ⟨0, 0, 0⟩⟩ : Transform3).apply p) = shard.points := by
    simp only [shard, List.map_cons, List.map_nil, List.cons.injEq, and_true]
    refine ⟨?_, ?_, ?_⟩ <;> ext <;> norm_num [Transform3.apply, Mat3.mulVec, Mat3.identity]
  rw [hpts]
  have hcl : clipped ⟨0, -1, -1⟩ ⟨0, -3 / 2, -1⟩ ⟨3 / 2, -1, -1⟩ =
      [((⟨0, -1, -1⟩ : Vec3), (⟨0, -3 / 2, -1⟩ : Vec3), (⟨3 / 2, -1, -1⟩ : Vec3))] := by
    rcases clipped_cases ⟨0, -1, -1⟩ ⟨0, -3 / 2, -1⟩ ⟨3 / 2, -1, -1⟩ with ⟨a, -⟩ | ⟨-, -, -, h⟩ | ⟨v, w1, w2, hv, -, b, -⟩ |
      ⟨v0, v1, w, hv, -, -, b, -⟩
    · norm_num [nearClip] at a
    · exact h
    · simp only [Prod.mk.injEq] at hv
      rcases hv with ⟨-, rfl, -⟩ | ⟨-, rfl, -⟩ | ⟨-, rfl, -⟩ <;> norm_num [nearClip] at b
    · simp only [Prod.mk.injEq] at hv
      rcases hv with ⟨-, -, rfl⟩ | ⟨-, -, rfl⟩ | ⟨-, -, rfl⟩ <;> norm_num [nearClip] at b
  have k1 : corner unitCamera ⟨0, -1, -1⟩ = ⟨0, 1, 1⟩ := by
    ext <;> norm_num [corner, unitCamera, Camera.project3Dto2D]
  have k2 : corner unitCamera ⟨0, -3 / 2, -1⟩ = ⟨0, 3 / 2, 1⟩ := by
    ext <;> norm_num [corner, unitCamera, Camera.project3Dto2D]
  have k3 : corner unitCamera ⟨3 / 2, -1, -1⟩ = ⟨3 / 2, 1, 1⟩ := by
    ext <;> norm_num [corner, unitCamera, Camera.project3Dto2D]
  have t0 : trunc 0 = 0 := by have := trunc_int 0; simpa using this
  have t1 : trunc 1 = 1 := by have := trunc_int 1; simpa using this
  have t3 : trunc (3 / 2) = 1 := by
    rw [trunc_eq_floor (by norm_num), Int.floor_eq_iff]
    norm_num
  have s1 : Small ⟨0, 1, 1⟩ := small_of (by norm_num [abs_lt]) (by norm_num [abs_lt])
  have s2 : Small ⟨0, 3 / 2, 1⟩ := small_of (by norm_num [abs_lt]) (by norm_num [abs_lt])
  have s3 : Small ⟨3 / 2, 1, 1⟩ := small_of (by norm_num [abs_lt]) (by norm_num [abs_lt])
  have hcull : ¬ (true = true ∧ culls ⟨0, 1, 1⟩ ⟨0, 3 / 2, 1⟩ ⟨3 / 2, 1, 1⟩) := by
    unfold culls
    norm_num
  have c1 := small_cast s1
  have c2 := small_cast s2
  have c3 := small_cast s3
  simp only [t0, t1, t3] at c1 c2 c3
  obtain ⟨rest, hdraw⟩ : ∃ rest, triangle2D 2 2 true ⟨0, 1, 1⟩ ⟨0, 3 / 2, 1⟩ ⟨3 / 2, 1, 1⟩ 0 = .ok (⟨0, 1, .fin 1, 0⟩ :: rest) := by
    have hsort : sort Vec3.x ⟨0, 1, 1⟩ ⟨0, 3 / 2, 1⟩ ⟨3 / 2, 1, 1⟩ = (⟨0, 1, 1⟩, ⟨0, 3 / 2, 1⟩, ⟨3 / 2, 1, 1⟩) := by
      unfold sort
      norm_num
    unfold triangle2D
    rw [if_neg hcull]
    simp only [c1.1, c1.2, c2.2, bind, Except.bind, pure, Except.pure]
    rw [if_pos (by decide), if_pos (by decide), hsort]
    simp only [c1.2, c2.2]
    have hr := row_right (width := 2) (y := 1) (Fl.fin 1) (Fl.fin 1) 0 (le_refl (0 : ℝ)) c1.1 c3.1
    have hp : part 2 2 1 1 (still ⟨0, 1, 1⟩) (still ⟨3 / 2, 1, 1⟩) 0 = _ := part_one (by norm_num) (by norm_num) hr
    rw [hp, show (min (((2 : ℕ) : ℤ) - 1) 1 - 0 + 1).toNat = 1 + 1 from rfl, pixels, Fl.div_fin _ one_ne_zero, div_one]
    exact ⟨_, rfl⟩
  simp only [shard, loop, vget, List.getElem?_cons_zero, List.getElem?_cons_succ, bind, Except.bind, hcl, triangles3D, k1, k2, k3,
    hdraw, pure, Except.pure, Sink.pixels, List.append_nil]
  obtain ⟨a, b, hm⟩ : ∃ a b, r.triangleMap = [[a], [b]] := by
    rcases hq : r.triangleMap with _ | ⟨l1, _ | ⟨l2, _ | ⟨l3, l⟩⟩⟩ <;> rw [hq] at hl <;> simp at hl
    obtain ⟨a, rfl⟩ := List.length_eq_one_iff.1 hl.1
    obtain ⟨b, rfl⟩ := List.length_eq_one_iff.1 hl.2
    exact ⟨a, b, rfl⟩
  have hpix : DefaultResult.sink.pixel (DefaultResult.new ⟨2, 2, fun _ _ => .fin 0⟩ 0 r.pointerMap r.triangleMap)
      ⟨0, 1, .fin 1, 0⟩ = .error .ub := by
    rw [hm]
    simp [DefaultResult.sink, DefaultResult.pixel, DefaultResult.new, DefaultResult.misfit, DefaultResult.resize,
      DefaultResult.store, vget, bind, Except.bind, pure, Except.pure]
  rw [hpix]

/-! ## C67 -/

/-- C67: for a rigid pose, a mesh skipped because its radius is smaller than its offset has no point in front of the camera, so
that all its triangles are clipped away. -/
theorem C67_behind {m : Mesh} {T : Transform3} (hT : Rigid T) (hm : GoodMesh m) (h : m.getMaxRadius.2 < T.t.z) :
    ∀ p ∈ m.points, -1 / 10 ≤ (T.apply p).z := fun _ hp =>
  not_lt.1 (radius_behind hT hm h _ (List.mem_map_of_mem hp))

/-- C67: the early returns change nothing: rendering is drawing all triangles of the posed mesh. -/
theorem C67_lossless {σ : Type} (k : Sink σ) (c : Camera) (width height : ℕ) {m : Mesh} {T : Transform3} (hT : Rigid T)
    (hm : GoodMesh m) (culling : Bool) (s : σ) :
    render k c width height m T culling s =
      loop k c width height culling (m.points.map fun p => T.apply p) 0 m.tris s :=
  render_eq_loop k c width height hT hm culling s

/-- C67: rendering draws the triangles in order, each with its own index, until the receiver has asked to stop or there are no
more: no triangle is drawn after a stop, and none is omitted without. (`st j` is the receiver after `j` triangles.) -/
theorem C67_stop {σ : Type} (k : Sink σ) (c : Camera) (width height : ℕ) {m : Mesh} {T : Transform3} (hT : Rigid T)
    (hm : GoodMesh m) (hl : m.tris.length ≤ 2 ^ 32) (culling : Bool) {s s' : σ}
    (h : render k c width height m T culling s = .ok s') :
    ∃ n ≤ m.tris.length, ∃ st : ℕ → σ, st 0 = s ∧ st n = s' ∧
      (∀ j < n, ∃ t p1 p2 p3 calls, m.tris[j]? = some t ∧ m.points[t.i1]? = some p1 ∧ m.points[t.i2]? = some p2 ∧
        m.points[t.i3]? = some p3 ∧
        (∃ css, List.Forall₂ (fun t cs => triangle2D width height culling (corner c t.1) (corner c t.2.1) (corner c t.2.2) j =
          .ok cs) (clipped (T.apply p1) (T.apply p2) (T.apply p3)) css ∧ calls = css.flatten) ∧
        (∀ p ∈ calls, p.tri = j) ∧ k.pixels calls (st j) = .ok (st (j + 1))) ∧
      (∀ j, 0 < j → j < n → k.stopped (st j) = false) ∧ (n < m.tris.length → 0 < n ∧ k.stopped s' = true) := by
  rw [C67_lossless k c width height hT hm] at h
  obtain ⟨n, hn, st, h0, h1, h2, h3, h4, h5⟩ := loop_stop k c width height culling _ m.tris 0 s s' (by omega) h
  refine ⟨n, hn, st, h0, h1, fun j hj => ?_, h4, fun hlt => ⟨?_, h5 hlt⟩⟩
  · obtain ⟨t, q1, q2, q3, calls, e0, e1, e2, e3, e4, e5⟩ := h3 j hj
    rw [List.getElem?_map, Option.map_eq_some_iff] at e1 e2 e3
    obtain ⟨p1, f1, rfl⟩ := e1
    obtain ⟨p2, f2, rfl⟩ := e2
    obtain ⟨p3, f3, rfl⟩ := e3
    rw [zero_add] at e4
    exact ⟨t, p1, p2, p3, calls, e0, f1, f2, f3, triangles3D_flat e4, triangles3D_tri e4, e5⟩
  · rcases Nat.eq_zero_or_pos n with h | h
    · rw [h2 h] at hlt
      simp at hlt
    · exact h

/-- The mesh of the cases is rendered, and 20 behind the camera it is skipped. -/
example : Rigid ⟨Mat3.identity, ⟨0, 0, 20⟩⟩ ∧ GoodMesh shard ∧ shard.tris.length ≤ 2 ^ 32 ∧
    shard.getMaxRadius.2 < (⟨Mat3.identity, ⟨0, 0, 20⟩⟩ : Transform3).t.z ∧
    ∃ s, render DefaultResult.sink unitCamera 2 2 shard ⟨Mat3.identity, ⟨0, 0, 0⟩⟩ true (blank 2 2) = .ok s := by
  refine ⟨by rw [Rigid, Orthogonal, M_identity]; simp, shard_good, by norm_num [shard], ?_, ?_⟩
  · obtain ⟨⟨ops, hops⟩, -⟩ := shard_good
    rw [(Mesh.getMaxRadius_ok (Mesh.coherent_run Mesh.coherent_new hops)).1]
    show Real.sqrt _ < 20
    rw [Real.sqrt_lt' (by norm_num)]
    norm_num [Mesh.sqMax, shard, Vec3.length2]
  · obtain ⟨s, h, -⟩ := C62_mesh DefaultResult.sink unitCamera 2 2 true unitCamera_moderate shard_good.2 shard_near
      (fun r => DefaultResult.Same (blank 2 2) r) (fun s p hs hi => by
        obtain ⟨s', e1, e2, -⟩ := DefaultResult.pixel_ok (r := s) (c := p) (by rw [hs.cols, hs.rows]; exact hi)
          (hs.fit (blank_fit 2 2))
        exact ⟨s', e1, hs.trans e2⟩) _ (.refl _)
    exact ⟨s, h⟩

/-! ## C82 -/

/-- C82: with a camera pose and an object pose, `rasterize` draws the mesh where the camera has it: in the pose `S` that the
camera pose takes to the object pose. -/
theorem C82_relative (c : Camera) (m : Mesh) {A B S : Transform3} (hA : Rigid A) (h : A.mul S = B) (image : DepthImage)
    (pm : List (List ℕ)) (pointer : ℕ) (tm : List (List ℤ)) :
    rasterize2 c m A B image pm pointer tm = rasterize c m S image pm pointer tm := by
  have : S = A.inverse.mul B := ((C02_rigid_inverse hA).2.2.2.2.1 B S).1 h
  rw [this]
  rfl

/-- C82: moving camera and object together changes nothing. -/
theorem C82_moved (c : Camera) (m : Mesh) {W A B : Transform3} (hW : Rigid W) (hA : Rigid A) (image : DepthImage)
    (pm : List (List ℕ)) (pointer : ℕ) (tm : List (List ℤ)) :
    rasterize2 c m (W.mul A) (W.mul B) image pm pointer tm = rasterize2 c m A B image pm pointer tm := by
  have hs : A.mul (A.inverseTimes B) = B := ((C02_rigid_inverse hA).2.2.2.2.1 B _).2 rfl
  rw [C82_relative c m hA hs, C82_relative c m ((C02_rigid_inverse hW).2.2.2.2.2.2.2 A hA)]
  rw [(C01_composition W A _ 0).2.2.1, hs]

/-- A camera a quarter turn off: the object pose is found again. -/
example : Rigid ⟨⟨0, -1, 0, 1, 0, 0, 0, 0, 1⟩, ⟨1, 2, 3⟩⟩ ∧
    (⟨⟨0, -1, 0, 1, 0, 0, 0, 0, 1⟩, ⟨1, 2, 3⟩⟩ : Transform3).mul ⟨Mat3.identity, ⟨4, 5, -6⟩⟩ =
      ⟨⟨0, -1, 0, 1, 0, 0, 0, 0, 1⟩, ⟨-4, 6, -3⟩⟩ := by
  constructor
  · unfold Rigid; rw [orth_iff]; norm_num
  · ext <;> norm_num [Transform3.mul, Mat3.mul, Mat3.mulVec, Mat3.identity]

end Geo
