import Verif.Model.RoundedRaster
import Verif.Spec.RoundedRaster
import Verif.Lemmas.DepthCameraTriangle
import Verif.Lemmas.Rounded

/-!
# The rasteriser in floating point arithmetic: rows, edges and triangles
-/

namespace Geo.Rounded

open Spec
open Raster (Edge still sort)

/-! ## Rows -/

theorem mem_pixels {rnd : ℝ → ℝ} {y : ℤ} {dd : Fl} {tri : ℕ} : ∀ (n : ℕ) (x : ℤ) (d : Fl),
    (∀ c ∈ pixels rnd y dd tri n x d, c.y = y ∧ c.tri = tri ∧ x ≤ c.x ∧ c.x < x + n) ∧
    ∀ k, x ≤ k → k < x + n → ∃ c ∈ pixels rnd y dd tri n x d, c.x = k
  | 0, x, d => by
    refine ⟨by simp [pixels], fun k h1 h2 => ?_⟩
    simp at h2
    omega
  | n + 1, x, d => by
    obtain ⟨h1, h2⟩ := mem_pixels n (x + 1) ((d.add dd).round rnd) (rnd := rnd) (y := y) (dd := dd) (tri := tri)
    refine ⟨fun c hc => ?_, fun k hk hk' => ?_⟩
    · rw [pixels, List.mem_cons] at hc
      push_cast
      rcases hc with rfl | hc
      · exact ⟨rfl, rfl, le_rfl, by dsimp only; omega⟩
      · obtain ⟨a, b, c, d⟩ := h1 c hc
        exact ⟨a, b, by omega, by omega⟩
    · rw [pixels]
      push_cast at hk'
      rcases hk.eq_or_lt with e | e
      · exact ⟨_, List.mem_cons_self, e⟩
      · obtain ⟨c, hc, hx⟩ := h2 k (by omega) (by omega)
        exact ⟨c, List.mem_cons_of_mem _ hc, hx⟩

theorem row_ok (rnd : ℝ → ℝ) (width : ℕ) (y : ℤ) {xs xe : ℝ} (ds de : Fl) (tri : ℕ) (h1 : |xs| < 2 ^ 31) (h2 : |xe| < 2 ^ 31) :
    ∃ cs, row rnd width y (.fin xs) (.fin xe) ds de tri = .ok cs ∧
      (∀ c ∈ cs, c.y = y ∧ c.tri = tri ∧ max 0 (trunc xs) ≤ c.x ∧ c.x ≤ min ((width : ℤ) - 1) (trunc xe)) ∧
      ∀ x, max 0 (trunc xs) ≤ x → x ≤ min ((width : ℤ) - 1) (trunc xe) → ∃ c ∈ cs, c.x = x := by
  have c1 := castInt_real (abs_lt.1 h1).1 (abs_lt.1 h1).2
  have c2 := castInt_real (abs_lt.1 h2).1 (abs_lt.1 h2).2
  unfold row
  rcases lt_or_ge xs 0 with h | h
  · have ht : trunc xs ≤ 0 := by
      rw [trunc_eq_ceil h]
      exact Int.ceil_le.2 (by exact_mod_cast h.le)
    rw [if_pos (by simpa using h)]
    simp only [bind, Except.bind, pure, Except.pure, Fl.toInt, c2]
    refine ⟨_, rfl, fun c hc => ?_, fun x x0 x1 => ?_⟩
    · obtain ⟨a, b, c, d⟩ := (mem_pixels _ _ _).1 c hc
      exact ⟨a, b, by omega, by omega⟩
    · exact (mem_pixels _ _ _).2 x (by omega) (by omega)
  · have ht : 0 ≤ trunc xs := by
      rw [trunc_eq_floor h]
      exact Int.floor_nonneg.2 h
    rw [if_neg (by simpa using h)]
    simp only [bind, Except.bind, pure, Except.pure, Fl.toInt, c1, c2]
    refine ⟨_, rfl, fun c hc => ?_, fun x x0 x1 => ?_⟩
    · obtain ⟨a, b, c, d⟩ := (mem_pixels _ _ _).1 c hc
      exact ⟨a, b, by omega, by omega⟩
    · exact (mem_pixels _ _ _).2 x (by omega) (by omega)

theorem rows_ok (rnd : ℝ → ℝ) (width : ℕ) (tri : ℕ) : ∀ (n : ℕ) (y : ℤ) (s e : Edge) (xs xe : ℕ → ℝ),
    (∀ k < n, ((next rnd)^[k] s).x = .fin (xs k) ∧ ((next rnd)^[k] e).x = .fin (xe k)) →
    (∀ k < n, |xs k| < 2 ^ 31 ∧ |xe k| < 2 ^ 31) →
    ∃ cs, rows rnd width tri n y s e = .ok cs ∧
      (∀ c ∈ cs, ∃ k < n, c.y = y + k ∧ c.tri = tri ∧ max 0 (trunc (xs k)) ≤ c.x ∧
        c.x ≤ min ((width : ℤ) - 1) (trunc (xe k))) ∧
      ∀ k < n, ∀ x, max 0 (trunc (xs k)) ≤ x → x ≤ min ((width : ℤ) - 1) (trunc (xe k)) → ∃ c ∈ cs, c.x = x ∧ c.y = y + k
  | 0, y, s, e, xs, xe, _, _ => ⟨[], rfl, by simp, by simp⟩
  | n + 1, y, s, e, xs, xe, h, hb => by
    obtain ⟨g1, g3⟩ := h 0 (by omega)
    obtain ⟨b1, b2⟩ := hb 0 (by omega)
    simp only [Function.iterate_zero, id] at g1 g3
    obtain ⟨cs, hcs, p1, p2⟩ := row_ok rnd width y s.d e.d tri b1 b2
    obtain ⟨rs, hrs, q1, q2⟩ := rows_ok rnd width tri n (y + 1) (next rnd s) (next rnd e) (fun k => xs (k + 1))
      (fun k => xe (k + 1)) (fun k hk => by simpa using h (k + 1) (by omega)) (fun k hk => hb (k + 1) (by omega))
    refine ⟨cs ++ rs, ?_, ?_, ?_⟩
    · rw [rows, g1, g3, hcs]
      simp only [bind, Except.bind, hrs, pure, Except.pure]
    · intro c hc
      rcases List.mem_append.1 hc with hc | hc
      · exact ⟨0, by omega, by simpa using p1 c hc⟩
      · obtain ⟨k, hk, hr⟩ := q1 c hc
        refine ⟨k + 1, by omega, ?_⟩
        have : y + 1 + (k : ℤ) = y + ((k + 1 : ℕ) : ℤ) := by push_cast; ring
        rw [← this]
        exact hr
    · intro k hk x x0 x1
      cases k with
      | zero =>
        obtain ⟨c, hc, hx⟩ := p2 x x0 x1
        exact ⟨c, List.mem_append_left _ hc, hx, by simpa using (p1 c hc).1⟩
      | succ k =>
        obtain ⟨c, hc, hx, hy⟩ := q2 k (by omega) x x0 x1
        exact ⟨c, List.mem_append_right _ hc, hx, by rw [hy]; push_cast; ring⟩

/-! ## Parts -/

/-- The position of an edge in row `y` of a part that starts in row `y0`. (Device of the proofs.) -/
noncomputable def value (rnd : ℝ → ℝ) (e : Edge) (y0 y : ℤ) : Fl :=
  if y0 < 0 then ((next rnd)^[y.toNat] (jump rnd e (-y0))).x else ((next rnd)^[(y - y0).toNat] e).x

/-- In all rows of the part that are in the image, the position is within `T` of `f`. (Device of the proofs.) -/
def Tracks (rnd : ℝ → ℝ) (e : Edge) (height : ℕ) (y0 y1 : ℤ) (f : ℤ → ℝ) (T : ℝ) : Prop :=
  ∀ y, y0 ≤ y → y ≤ y1 → 0 ≤ y → y < height → ∃ x, value rnd e y0 y = .fin x ∧ |x - f y| ≤ T

theorem part_ok {rnd : ℝ → ℝ} (width height : ℕ) {y0 y1 : ℤ} (hy0 : -2 ^ 31 < y0) {s e : Edge} (tri : ℕ)
    {f g : ℤ → ℝ} {T : ℝ} (hs : Tracks rnd s height y0 y1 f T) (he : Tracks rnd e height y0 y1 g T)
    (hb : ∀ y, y0 ≤ y → y ≤ y1 → |f y| + T < 2 ^ 31 ∧ |g y| + T < 2 ^ 31) :
    ∃ cs, part rnd width height y0 y1 s e tri = .ok cs ∧
      (∀ p ∈ cs, y0 ≤ p.y ∧ p.y ≤ y1 ∧ 0 ≤ p.y ∧ p.y < height ∧ p.tri = tri ∧ ∃ xs xe, |xs - f p.y| ≤ T ∧ |xe - g p.y| ≤ T ∧
        max 0 (trunc xs) ≤ p.x ∧ p.x ≤ min ((width : ℤ) - 1) (trunc xe)) ∧
      ∀ y, y0 ≤ y → y ≤ y1 → 0 ≤ y → y < height → ∃ xs xe, |xs - f y| ≤ T ∧ |xe - g y| ≤ T ∧
        ∀ x, max 0 (trunc xs) ≤ x → x ≤ min ((width : ℤ) - 1) (trunc xe) → ∃ p ∈ cs, p.x = x ∧ p.y = y := by
  have key : ∀ {x a : ℝ}, |x - a| ≤ T → |a| + T < 2 ^ 31 → |x| < 2 ^ 31 := by
    intro x a h1 h2
    have := abs_sub_abs_le_abs_sub x a
    linarith
  choose! X hX1 hX2 using hs
  choose! Y hY1 hY2 using he
  unfold part
  rcases lt_or_ge y0 0 with h0 | h0
  · rw [if_pos h0]
    have : intOp (-y0) = .ok (-y0) := by
      unfold intOp
      rw [if_pos (by omega)]
    simp only [this, bind, Except.bind, pure, Except.pure]
    have hv : ∀ (e : Edge) (k : ℕ), value rnd e y0 k = ((next rnd)^[k] (jump rnd e (-y0))).x := by
      intro e k
      rw [value, if_pos h0, Int.toNat_natCast]
    obtain ⟨cs, hcs, p1, p2⟩ := rows_ok rnd width tri (min ((height : ℤ) - 1) y1 - 0 + 1).toNat 0 (jump rnd s (-y0))
      (jump rnd e (-y0)) (fun k => X k) (fun k => Y k)
      (fun k hk => ⟨by rw [← hv]; exact hX1 k (by omega) (by omega) (by omega) (by omega),
        by rw [← hv]; exact hY1 k (by omega) (by omega) (by omega) (by omega)⟩)
      (fun k hk => ⟨key (hX2 k (by omega) (by omega) (by omega) (by omega)) (hb k (by omega) (by omega)).1,
        key (hY2 k (by omega) (by omega) (by omega) (by omega)) (hb k (by omega) (by omega)).2⟩)
    refine ⟨cs, hcs, ?_, ?_⟩
    · intro p hp
      obtain ⟨k, hk, hy, ht, hr⟩ := p1 p hp
      rw [zero_add] at hy
      refine ⟨by omega, by omega, by omega, by omega, ht, X k, Y k, ?_, ?_, hr⟩
      · rw [hy]; exact hX2 k (by omega) (by omega) (by omega) (by omega)
      · rw [hy]; exact hY2 k (by omega) (by omega) (by omega) (by omega)
    · intro y g1 g2 g3 g4
      refine ⟨X y, Y y, hX2 y g1 g2 g3 g4, hY2 y g1 g2 g3 g4, fun x x0 x1 => ?_⟩
      have hk : ((y.toNat : ℕ) : ℤ) = y := Int.toNat_of_nonneg g3
      obtain ⟨p, hp, e1, e2⟩ := p2 y.toNat (by omega) x (by rw [hk]; exact x0) (by rw [hk]; exact x1)
      exact ⟨p, hp, e1, by rw [e2, hk]; ring⟩
  · rw [if_neg (by omega)]
    simp only [bind, Except.bind, pure, Except.pure]
    have hv : ∀ (e : Edge) (k : ℕ), value rnd e y0 (y0 + k) = ((next rnd)^[k] e).x := by
      intro e k
      rw [value, if_neg (by omega), show y0 + (k : ℤ) - y0 = k by ring, Int.toNat_natCast]
    obtain ⟨cs, hcs, p1, p2⟩ := rows_ok rnd width tri (min ((height : ℤ) - 1) y1 - y0 + 1).toNat y0 s e
      (fun k => X (y0 + k)) (fun k => Y (y0 + k))
      (fun k hk => ⟨by rw [← hv]; exact hX1 _ (by omega) (by omega) (by omega) (by omega),
        by rw [← hv]; exact hY1 _ (by omega) (by omega) (by omega) (by omega)⟩)
      (fun k hk => ⟨key (hX2 _ (by omega) (by omega) (by omega) (by omega)) (hb _ (by omega) (by omega)).1,
        key (hY2 _ (by omega) (by omega) (by omega) (by omega)) (hb _ (by omega) (by omega)).2⟩)
    refine ⟨cs, hcs, ?_, ?_⟩
    · intro p hp
      obtain ⟨k, hk, hy, ht, hr⟩ := p1 p hp
      refine ⟨by omega, by omega, by omega, by omega, ht, X (y0 + k), Y (y0 + k), ?_, ?_, hr⟩
      · rw [hy]; exact hX2 _ (by omega) (by omega) (by omega) (by omega)
      · rw [hy]; exact hY2 _ (by omega) (by omega) (by omega) (by omega)
    · intro y g1 g2 g3 g4
      refine ⟨X y, Y y, hX2 y g1 g2 g3 g4, hY2 y g1 g2 g3 g4, fun x x0 x1 => ?_⟩
      have hk : (((y - y0).toNat : ℕ) : ℤ) = y - y0 := Int.toNat_of_nonneg (by omega)
      have hk' : y0 + (((y - y0).toNat : ℕ) : ℤ) = y := by omega
      obtain ⟨p, hp, e1, e2⟩ := p2 (y - y0).toNat (by omega) x (by rw [hk']; exact x0) (by rw [hk']; exact x1)
      exact ⟨p, hp, e1, by rw [e2, hk']⟩

/-! ## Errors of edges -/

section

variable {u : ℝ} {rnd : ℝ → ℝ}

/-- One more rounding. -/
theorem rnd_err (h : RelErr u rnd) {x y e X : ℝ} (hu : 0 ≤ u) (h1 : |y - x| ≤ e) (h2 : |x| ≤ X) :
    |rnd y - x| ≤ e + u * (X + e) := by
  have h3 := h y
  have h4 : |y| ≤ X + e := by
    have := abs_sub_abs_le_abs_sub y x
    linarith
  have h5 := mul_le_mul_of_nonneg_left h4 hu
  calc |rnd y - x| = |(rnd y - y) + (y - x)| := by congr 1; ring
    _ ≤ |rnd y - y| + |y - x| := abs_add_le _ _
    _ ≤ _ := by linarith

/-- The quotient of two approximations, the second one relative. -/
theorem quot_err {w v n N e W : ℝ} (hu : 0 ≤ u) (hu' : u ≤ 1 / 1000) (hn : 0 < n) (hv : |v - w| ≤ e) (hw : |w| ≤ W)
    (hN : |N - n| ≤ u * n) : |v / N - w / n| ≤ 1.002 * (e + u * W) / n := by
  obtain ⟨a, b⟩ := abs_le.1 hN
  have hun : u * n ≤ 1 / 1000 * n := mul_le_mul_of_nonneg_right hu' hn.le
  have hN0 : 0.999 * n ≤ N := by linarith
  have hNp : 0 < N := by linarith
  have e0 : 0 ≤ e := (abs_nonneg _).trans hv
  have W0 : 0 ≤ W := (abs_nonneg _).trans hw
  have e1 : v / N - w / n = ((v - w) * n + w * (n - N)) / (N * n) := by field_simp; ring
  have e2 : |(v - w) * n + w * (n - N)| ≤ (e + u * W) * n := by
    have q1 : |(v - w) * n| ≤ e * n := by
      rw [abs_mul, abs_of_pos hn]; exact mul_le_mul_of_nonneg_right hv hn.le
    have q2 : |w * (n - N)| ≤ W * (u * n) := by
      rw [abs_mul, abs_sub_comm n N]
      exact mul_le_mul hw hN (abs_nonneg _) W0
    calc _ ≤ |(v - w) * n| + |w * (n - N)| := abs_add_le _ _
      _ ≤ e * n + W * (u * n) := by linarith
      _ = _ := by ring
  rw [e1, abs_div, abs_of_pos (mul_pos hNp hn), div_le_div_iff₀ (mul_pos hNp hn) hn]
  have q0 : 0 ≤ (e + u * W) * n * n := by positivity
  calc |(v - w) * n + w * (n - N)| * n ≤ (e + u * W) * n * n := mul_le_mul_of_nonneg_right e2 hn.le
    _ ≤ 1.002 * 0.999 * ((e + u * W) * n * n) := by linarith
    _ = 1.002 * (e + u * W) * n * (0.999 * n) := by ring
    _ ≤ 1.002 * (e + u * W) * n * N := mul_le_mul_of_nonneg_left hN0 (by positivity)
    _ = _ := by ring

/-- The step of an edge from row to row. -/
theorem slope_err (h : RelErr u rnd) (hu : 0 ≤ u) (hu' : u ≤ 1 / 1000) {p q p' q' B : ℝ} {n : ℤ} (hn : 0 < n) (hp : |p| ≤ B)
    (hq : |q| ≤ B) (hp' : |p' - p| ≤ 6 * u * B) (hq' : |q' - q| ≤ 6 * u * B) :
    |rnd (rnd (q' - p') / rnd n) - (q - p) / n| ≤ 19 * u * B / n := by
  have hn' : (0 : ℝ) < n := by exact_mod_cast hn
  have B0 : 0 ≤ B := (abs_nonneg _).trans hp
  have hw : |q - p| ≤ 2 * B := by
    have := abs_sub q p
    linarith
  have d1 : |(q' - p') - (q - p)| ≤ 12 * u * B := by
    have e : (q' - p') - (q - p) = (q' - q) - (p' - p) := by ring
    rw [e]
    have := abs_sub (q' - q) (p' - p)
    linarith
  have uB : 0 ≤ u * B := mul_nonneg hu B0
  have uuB : u * (u * B) ≤ 1 / 1000 * (u * B) := mul_le_mul_of_nonneg_right hu' uB
  have d2 := rnd_err h hu d1 hw
  have d3 : |rnd (q' - p') - (q - p)| ≤ 14.02 * (u * B) := by linarith
  have hN : |rnd (n : ℝ) - n| ≤ u * n := by
    have := h n
    rwa [abs_of_pos hn'] at this
  have d4 := quot_err hu hu' hn' d3 hw hN
  have d5 : |rnd (q' - p') / rnd n - (q - p) / n| ≤ 16.1 * (u * B) / n :=
    d4.trans (div_le_div_of_nonneg_right (by linarith) hn'.le)
  have hwn : |(q - p) / n| ≤ 2 * B / n := by
    rw [abs_div, abs_of_pos hn']
    exact div_le_div_of_nonneg_right hw hn'.le
  have d6 := rnd_err h hu d5 hwn
  refine d6.trans ?_
  have e1 : 16.1 * (u * B) / n + u * (2 * B / n + 16.1 * (u * B) / n) =
      (16.1 * (u * B) + 2 * (u * B) + 16.1 * (u * (u * B))) / n := by ring
  rw [e1]
  exact div_le_div_of_nonneg_right (by linarith) hn'.le

/-- The coordinate of the point on the long edge. -/
theorem prime_err (h : RelErr u rnd) (hu : 0 ≤ u) (hu' : u ≤ 1 / 1000) {a c B : ℝ} {m n : ℤ} (hm : 0 ≤ m) (hn : 0 ≤ n)
    (hd : 0 < m + n) (ha : |a| ≤ B) (hc : |c| ≤ B) :
    |primeCoord rnd m n (m + n) a c - (m * a + n * c) / (m + n)| ≤ 6 * u * B := by
  have hm' : (0 : ℝ) ≤ m := by exact_mod_cast hm
  have hn' : (0 : ℝ) ≤ n := by exact_mod_cast hn
  have hd' : (0 : ℝ) < (m : ℝ) + n := by exact_mod_cast hd
  have B0 : 0 ≤ B := (abs_nonneg _).trans ha
  have uB : 0 ≤ u * B := mul_nonneg hu B0
  have uuB : u * (u * B) ≤ 1 / 1000 * (u * B) := mul_le_mul_of_nonneg_right hu' uB
  have one : ∀ {x : ℝ} {k : ℤ}, (0 : ℝ) ≤ k → |x| ≤ B → |rnd (x * rnd k) - k * x| ≤ 2.01 * (u * B) * k ∧ |k * x| ≤ B * k := by
    intro x k hk hx
    have b0 : |k * x| ≤ B * k := by
      rw [abs_mul, abs_of_nonneg hk, mul_comm]
      exact mul_le_mul_of_nonneg_right hx hk
    have q1 : |x * rnd k - k * x| ≤ u * B * k := by
      have e : x * rnd k - k * x = x * (rnd k - k) := by ring
      have := h k
      rw [abs_of_nonneg hk] at this
      rw [e, abs_mul]
      calc |x| * |rnd k - k| ≤ B * (u * k) := mul_le_mul hx this (abs_nonneg _) B0
        _ = _ := by ring
    refine ⟨(rnd_err h hu q1 b0).trans ?_, b0⟩
    have := mul_le_mul_of_nonneg_right uuB hk
    have q2 : 0 ≤ u * B * k := mul_nonneg uB hk
    linarith
  obtain ⟨m1, m2⟩ := one hm' ha
  obtain ⟨n1, n2⟩ := one hn' hc
  have d1 : |(rnd (a * rnd m) + rnd (c * rnd n)) - (m * a + n * c)| ≤ 2.01 * (u * B) * (m + n) := by
    have e : (rnd (a * rnd m) + rnd (c * rnd n)) - (m * a + n * c) = (rnd (a * rnd m) - m * a) + (rnd (c * rnd n) - n * c) := by
      ring
    rw [e]
    have := abs_add_le (rnd (a * rnd m) - m * a) (rnd (c * rnd n) - n * c)
    linarith
  have hS : |m * a + n * c| ≤ B * (m + n) := by
    have := abs_add_le (m * a) (n * c)
    linarith
  have d2 := rnd_err h hu d1 hS
  have uBd : 0 ≤ u * B * (m + n) := mul_nonneg uB hd'.le
  have uuBd := mul_le_mul_of_nonneg_right uuB hd'.le
  have d3 : |rnd (rnd (a * rnd m) + rnd (c * rnd n)) - (m * a + n * c)| ≤ 3.02 * (u * B * (m + n)) := by linarith
  have hN : |rnd ((m + n : ℤ) : ℝ) - (m + n)| ≤ u * (m + n) := by
    have := h ((m + n : ℤ) : ℝ)
    push_cast at this ⊢
    rwa [abs_of_pos hd'] at this
  have d4 := quot_err hu hu' hd' d3 hS hN
  have d5 : |rnd (rnd (a * rnd m) + rnd (c * rnd n)) / rnd ((m + n : ℤ) : ℝ) - (m * a + n * c) / (m + n)| ≤ 4.05 * (u * B) := by
    refine d4.trans ?_
    rw [div_le_iff₀ hd']
    linarith
  have hP : |(m * a + n * c) / ((m : ℝ) + n)| ≤ B := by
    rw [abs_div, abs_of_pos hd', div_le_iff₀ hd']
    exact hS
  have d6 := rnd_err h hu d5 hP
  unfold primeCoord
  refine d6.trans ?_
  linarith

theorem along_bound {a b B : ℝ} {m k : ℤ} (hk : 0 ≤ k) (hkm : k ≤ m) (ha : |a| ≤ B) (hb : |b| ≤ B) : |along a b m k| ≤ B := by
  rcases (hk.trans hkm).eq_or_lt with e | e
  · have : k = 0 := by omega
    subst this
    simpa [along] using ha
  · have h2 : (0 : ℝ) < m := by exact_mod_cast e
    have h3 : (k : ℝ) ≤ m := by exact_mod_cast hkm
    have h4 : (k : ℝ) / m ≤ 1 := by rw [div_le_one h2]; exact h3
    have h5 : 0 ≤ (k : ℝ) / m := div_nonneg (by exact_mod_cast hk) h2.le
    have e1 : along a b m k = k / m * b + (1 - k / m) * a := by unfold along; field_simp; ring
    obtain ⟨a1, a2⟩ := abs_le.1 ha
    obtain ⟨b1, b2⟩ := abs_le.1 hb
    rw [e1, abs_le]
    have i1 := mul_le_mul_of_nonneg_left b1 h5
    have i2 := mul_le_mul_of_nonneg_left b2 h5
    have i3 := mul_le_mul_of_nonneg_left a1 (sub_nonneg.2 h4)
    have i4 := mul_le_mul_of_nonneg_left a2 (sub_nonneg.2 h4)
    constructor <;> linarith

/-- The first coordinate after some steps, for a finite start and step. -/
theorem next_iter_x (rnd : ℝ → ℝ) (dx : ℝ) : ∀ (k : ℕ) (x : ℝ) (d dd : Fl), ∃ d',
    (next rnd)^[k] ⟨.fin x, .fin dx, d, dd⟩ = ⟨.fin ((fun x => rnd (x + dx))^[k] x), .fin dx, d', dd⟩
  | 0, x, d, dd => ⟨d, rfl⟩
  | k + 1, x, d, dd => by
    obtain ⟨d', h⟩ := next_iter_x rnd dx k (rnd (x + dx)) ((d.add dd).round rnd) dd
    exact ⟨d', by rw [Function.iterate_succ_apply, Function.iterate_succ_apply, ← h]; rfl⟩

/-- Steps from row to row. -/
theorem steps_err (h : RelErr u rnd) (hu : 0 ≤ u) {p q B dx x : ℝ} {n j : ℤ} (hn : 0 < n) (hj : 0 ≤ j)
    (hp : |p| ≤ B) (hq : |q| ≤ B) (hdx : |dx - (q - p) / n| ≤ 19 * u * B / n) (hx : |x - along p q n j| ≤ 32 * u * B) :
    ∀ k : ℕ, j + k ≤ n → (2 * k + 60) * u ≤ 1 →
      |(fun x => rnd (x + dx))^[k] x - along p q n (j + k)| ≤ 32 * u * B + k * (19 * u * B / n) + 2 * k * (u * B) := by
  have B0 : 0 ≤ B := (abs_nonneg _).trans hp
  have uB : 0 ≤ u * B := mul_nonneg hu B0
  have hn' : (0 : ℝ) < n := by exact_mod_cast hn
  intro k
  induction k with
  | zero => intro _ _; simpa using hx
  | succ k ih =>
    intro h1 h2
    push_cast at h1 h2 ⊢
    have ih := ih (by omega) (by linarith)
    rw [Function.iterate_succ_apply']
    generalize (fun x => rnd (x + dx))^[k] x = z at *
    have e1 : along p q n (j + (k + 1)) = along p q n (j + k) + (q - p) / n := by
      unfold along
      push_cast
      ring
    have hb := along_bound (m := n) (k := j + (k + 1)) (by omega) (by omega) hp hq
    rw [e1] at hb ⊢
    have d1 : |(z + dx) - (along p q n (j + k) + (q - p) / n)| ≤
        32 * u * B + k * (19 * u * B / n) + 2 * k * (u * B) + 19 * u * B / n := by
      have e2 : (z + dx) - (along p q n (j + k) + (q - p) / n) = (z - along p q n (j + k)) + (dx - (q - p) / n) := by ring
      rw [e2]
      have := abs_add_le (z - along p q n (j + k)) (dx - (q - p) / n)
      linarith
    have d2 := rnd_err h hu d1 hb
    have hk : ((k : ℝ) + 1) * (19 * u * B / n) ≤ 19 * u * B := by
      have k1 : (k : ℝ) + 1 ≤ n := by
        have : (k : ℤ) + 1 ≤ n := by omega
        exact_mod_cast this
      rw [mul_div_assoc', div_le_iff₀ hn']
      have : 0 ≤ 19 * u * B := by linarith
      have := mul_le_mul_of_nonneg_right k1 this
      linarith
    have htot : 32 * u * B + k * (19 * u * B / n) + 2 * k * (u * B) + 19 * u * B / n ≤ B := by
      have := mul_le_mul_of_nonneg_right h2 B0
      linarith
    have := mul_le_mul_of_nonneg_left htot hu
    linarith

/-- The position after the rows above the image have been skipped. -/
theorem jump_err (h : RelErr u rnd) (hu : 0 ≤ u) (hu' : u ≤ 1 / 1000) {p q B dx p' : ℝ} {n m : ℤ} (hm : 0 ≤ m) (hmn : m ≤ n)
    (hn : 0 < n) (hp : |p| ≤ B) (hq : |q| ≤ B) (hp' : |p' - p| ≤ 6 * u * B) (hdx : |dx - (q - p) / n| ≤ 19 * u * B / n) :
    |rnd (p' + rnd (dx * rnd m)) - along p q n m| ≤ 32 * u * B := by
  have B0 : 0 ≤ B := (abs_nonneg _).trans hp
  have uB : 0 ≤ u * B := mul_nonneg hu B0
  have uuB : u * (u * B) ≤ 1 / 1000 * (u * B) := mul_le_mul_of_nonneg_right hu' uB
  have hn' : (0 : ℝ) < n := by exact_mod_cast hn
  have hm' : (0 : ℝ) ≤ m := by exact_mod_cast hm
  have hmn' : (m : ℝ) ≤ n := by exact_mod_cast hmn
  have hN : |rnd (m : ℝ) - m| ≤ u * m := by
    have := h m
    rwa [abs_of_nonneg hm'] at this
  have hN' : |rnd (m : ℝ)| ≤ 1.001 * m := by
    have := abs_sub_abs_le_abs_sub (rnd (m : ℝ)) m
    rw [abs_of_nonneg hm'] at this
    have := mul_le_mul_of_nonneg_right hu' hm'
    linarith
  have hw : |q - p| ≤ 2 * B := by
    have := abs_sub q p
    linarith
  have hs : |(q - p) / n| ≤ 2 * B / n := by
    rw [abs_div, abs_of_pos hn']
    exact div_le_div_of_nonneg_right hw hn'.le
  have quot : ∀ {c : ℝ}, 0 ≤ c → c / n * m ≤ c := by
    intro c hc
    rw [div_mul_eq_mul_div, div_le_iff₀ hn']
    exact mul_le_mul_of_nonneg_left hmn' hc
  have d1 : |dx * rnd m - (q - p) / n * m| ≤ 21.1 * (u * B) := by
    have e : dx * rnd m - (q - p) / n * m = (dx - (q - p) / n) * rnd m + (q - p) / n * (rnd m - m) := by ring
    have q1 : |(dx - (q - p) / n) * rnd m| ≤ 19 * u * B / n * (1.001 * m) := by
      rw [abs_mul]
      exact mul_le_mul hdx hN' (abs_nonneg _) (by positivity)
    have q2 : |(q - p) / n * (rnd m - m)| ≤ 2 * B / n * (u * m) := by
      rw [abs_mul]
      exact mul_le_mul hs hN (abs_nonneg _) (by positivity)
    have q3 := quot (c := 19 * u * B) (by linarith)
    have q4 := quot (c := 2 * (u * B)) (by linarith)
    have e4 : 2 * B / n * (u * m) = 2 * (u * B) / n * m := by ring
    rw [e]
    have := abs_add_le ((dx - (q - p) / n) * rnd m) ((q - p) / n * (rnd m - m))
    linarith
  have hs2 : |(q - p) / n * m| ≤ 2 * B := by
    rw [abs_mul, abs_of_nonneg hm']
    calc _ ≤ 2 * B / n * m := mul_le_mul_of_nonneg_right hs hm'
      _ ≤ _ := quot (by linarith)
  have d2 := rnd_err h hu d1 hs2
  have d3 : |(p' + rnd (dx * rnd m)) - along p q n m| ≤ 29.2 * (u * B) := by
    have e : (p' + rnd (dx * rnd m)) - along p q n m = (p' - p) + (rnd (dx * rnd m) - (q - p) / n * m) := by
      unfold along
      ring
    rw [e]
    have := abs_add_le (p' - p) (rnd (dx * rnd m) - (q - p) / n * m)
    linarith
  have d4 := rnd_err h hu d3 (along_bound hm hmn hp hq)
  linarith

/-- An edge between approximate corners tracks the exact one. -/
theorem tracks_edge (h : RelErr u rnd) (hu : 0 ≤ u) (hu' : u ≤ 1 / 1000) {height : ℕ} (hh : (2 * height + 60) * u ≤ 1)
    {p q B : ℝ} {a b : Vec3} {y0 y1 : ℤ} (hp : |p| ≤ B) (hq : |q| ≤ B)
    (ha : |a.x - p| ≤ 6 * u * B) (hb : |b.x - q| ≤ 6 * u * B) :
    Tracks rnd (edge rnd a b (y1 - y0)) height y0 y1 (fun y => along p q (y1 - y0) (y - y0)) ((2 * height + 60) * u * B) := by
  have B0 : 0 ≤ B := (abs_nonneg _).trans hp
  have uB : 0 ≤ u * B := mul_nonneg hu B0
  intro y g0 g1 g2 g3
  have hH : (0 : ℝ) ≤ height := Nat.cast_nonneg _
  have hHuB : 0 ≤ (height : ℝ) * (u * B) := mul_nonneg hH uB
  rcases (g0.trans g1).eq_or_lt with e | e
  · subst e
    obtain rfl : y = y0 := by omega
    refine ⟨a.x, ?_, ?_⟩
    · rw [value, if_neg (by omega)]
      simp [edge]
    · simp only [sub_self, along, Int.cast_zero, zero_mul, add_zero]
      linarith
  · have hn : 0 < y1 - y0 := by omega
    have hn' : (0 : ℝ) < ((y1 - y0 : ℤ) : ℝ) := by exact_mod_cast hn
    generalize hN : y1 - y0 = n at *
    have hrn : rnd (n : ℝ) ≠ 0 := by
      intro h0
      have := h n
      rw [h0, zero_sub, abs_neg, abs_of_pos hn'] at this
      have := mul_le_mul_of_nonneg_right hu' hn'.le
      linarith
    have hdx := slope_err h hu hu' hn hp hq ha hb
    have he : edge rnd a b n = ⟨.fin a.x, .fin (rnd (rnd (b.x - a.x) / rnd n)), .fin a.z, .fin (rnd (rnd (b.z - a.z) / rnd n))⟩ := by
      rw [edge, Fl.div_fin _ hrn, Fl.div_fin _ hrn]
      rfl
    generalize rnd (rnd (b.x - a.x) / rnd n) = dx at *
    have fin : ∀ k : ℕ, (k : ℤ) < height → (k : ℤ) ≤ n →
        32 * u * B + k * (19 * u * B / n) + 2 * k * (u * B) ≤ (2 * height + 60) * u * B := by
      intro k k1 k2
      have k1 : (k : ℝ) ≤ height := by exact_mod_cast k1.le
      have k2 : (k : ℝ) ≤ n := by exact_mod_cast k2
      have q1 : (k : ℝ) * (19 * u * B / n) ≤ 19 * u * B := by
        rw [mul_div_assoc', div_le_iff₀ hn']
        have : 0 ≤ 19 * u * B := by linarith
        have := mul_le_mul_of_nonneg_right k2 this
        linarith
      have q2 := mul_le_mul_of_nonneg_right k1 uB
      linarith
    have small : ∀ k : ℕ, (k : ℤ) < height → (2 * (k : ℝ) + 60) * u ≤ 1 := by
      intro k k1
      have k1 : (k : ℝ) ≤ height := by exact_mod_cast k1.le
      have := mul_le_mul_of_nonneg_right k1 hu
      linarith
    rcases lt_or_ge y0 0 with h0 | h0
    · have hj := jump_err h hu hu' (m := -y0) (by omega) (by omega) hn hp hq ha hdx
      have hk : ((y.toNat : ℕ) : ℤ) = y := Int.toNat_of_nonneg g2
      have hst := steps_err h hu hn (by omega) hp hq hdx hj y.toNat (by omega) (small _ (by omega))
      have hv : jump rnd (edge rnd a b n) (-y0) = ⟨.fin (rnd (a.x + rnd (dx * rnd ((-y0 : ℤ) : ℝ)))), .fin dx,
          (jump rnd (edge rnd a b n) (-y0)).d, (edge rnd a b n).dDelta⟩ := by
        rw [he]
        rfl
      obtain ⟨d', hd'⟩ := next_iter_x rnd dx y.toNat (rnd (a.x + rnd (dx * rnd ((-y0 : ℤ) : ℝ))))
        (jump rnd (edge rnd a b n) (-y0)).d (edge rnd a b n).dDelta
      refine ⟨(fun x => rnd (x + dx))^[y.toNat] (rnd (a.x + rnd (dx * rnd ((-y0 : ℤ) : ℝ)))), ?_, ?_⟩
      · rw [value, if_pos h0, hv, hd']
      · rw [hk, show -y0 + y = y - y0 by ring] at hst
        exact hst.trans (fin _ (by omega) (by omega))
    · have hj : |a.x - along p q n 0| ≤ 32 * u * B := by
        simp only [along, Int.cast_zero, zero_mul, add_zero]
        linarith
      have hk : (((y - y0).toNat : ℕ) : ℤ) = y - y0 := Int.toNat_of_nonneg (by omega)
      have hst := steps_err h hu hn le_rfl hp hq hdx hj (y - y0).toNat (by omega) (small _ (by omega))
      obtain ⟨d', hd'⟩ := next_iter_x rnd dx (y - y0).toNat a.x (.fin a.z) (.fin (rnd (rnd (b.z - a.z) / rnd n)))
      refine ⟨(fun x => rnd (x + dx))^[(y - y0).toNat] a.x, ?_, ?_⟩
      · rw [value, if_neg (by omega), he, hd']
      · rw [hk, zero_add] at hst
        exact hst.trans (fin _ (by omega) (by omega))

/-- A part of one row. -/
theorem tracks_still (rnd : ℝ → ℝ) (height : ℕ) (p : Vec3) (y0 : ℤ) {T : ℝ} (hT : 0 ≤ T) :
    Tracks rnd (still p) height y0 y0 (fun _ => p.x) T := by
  intro y g0 g1 g2 g3
  obtain rfl : y = y0 := by omega
  refine ⟨p.x, ?_, by simpa using hT⟩
  rw [value, if_neg (by omega)]
  simp [still]

end

/-! ## Triangles -/

/-- The pixels of a list are those of the triangle in the image up to a shift of `T`. (Device of the proofs.) -/
def Covers (T : ℝ) (width height : ℕ) (p1 p2 p3 : Vec3) (tri : ℕ) (cs : List PixelCall) : Prop :=
  (∀ c ∈ cs, InImage width height c.x c.y ∧ c.tri = tri ∧ Touched T p1 p2 p3 c.x c.y) ∧
    ∀ x y : ℤ, InImage width height x y → Covered T p1 p2 p3 x y → ∃ c ∈ cs, c.x = x ∧ c.y = y

theorem Covers.of {T : ℝ} {width height : ℕ} {p1 p2 p3 q1 q2 q3 : Vec3} {tri : ℕ} {cs : List PixelCall}
    (hpq : ∀ u y d, InSnapped p1 p2 p3 u y d ↔ InSnapped q1 q2 q3 u y d)
    (h : Covers T width height p1 p2 p3 tri cs) : Covers T width height q1 q2 q3 tri cs := by
  refine ⟨fun c hc => ?_, fun x y h1 h2 => h.2 x y h1 ?_⟩
  · obtain ⟨a, b, u, d, v, e⟩ := h.1 c hc
    exact ⟨a, b, u, d, v, (hpq _ _ _).1 e.1, e.2⟩
  · obtain ⟨u, d, e⟩ := h2
    exact ⟨u, d, (hpq _ _ _).2 e.1, e.2⟩

theorem Covers.swap12 {T : ℝ} {width height : ℕ} {p1 p2 p3 : Vec3} {tri : ℕ} {cs : List PixelCall}
    (h : Covers T width height p1 p2 p3 tri cs) : Covers T width height p2 p1 p3 tri cs :=
  h.of fun _ _ _ => ⟨inSnapped_swap12, inSnapped_swap12⟩

theorem Covers.swap23 {T : ℝ} {width height : ℕ} {p1 p2 p3 : Vec3} {tri : ℕ} {cs : List PixelCall}
    (h : Covers T width height p1 p2 p3 tri cs) : Covers T width height p1 p3 p2 tri cs :=
  h.of fun _ _ _ => ⟨inSnapped_swap23, inSnapped_swap23⟩

theorem touched_of_row {T : ℝ} {p1 p2 p3 : Vec3} {x y : ℤ} {l r dl dr xs xe : ℝ} (hl : InSnapped p1 p2 p3 l y dl)
    (hr : InSnapped p1 p2 p3 r y dr) (hlr : l ≤ r) (h1 : |xs - l| ≤ T) (h2 : |xe - r| ≤ T) (h3 : max 0 (trunc xs) ≤ x)
    (h4 : x ≤ trunc xe) : Touched T p1 p2 p3 x y := by
  rcases le_or_gt xs xe with h | h
  · obtain ⟨v, v1, v2, v3⟩ := trunc_interval h h3 h4
    have key : ∃ w, l ≤ w ∧ w ≤ r ∧ |v - w| ≤ T := by
      obtain ⟨a1, a2⟩ := abs_le.1 h1
      obtain ⟨b1, b2⟩ := abs_le.1 h2
      rcases lt_or_ge v l with g | g
      · exact ⟨l, le_rfl, hlr, abs_le.2 ⟨by linarith, by linarith⟩⟩
      · rcases lt_or_ge r v with g' | g'
        · exact ⟨r, hlr, le_rfl, abs_le.2 ⟨by linarith, by linarith⟩⟩
        · exact ⟨v, g, g', by simpa using (abs_nonneg _).trans h1⟩
    obtain ⟨w, w1, w2, w3⟩ := key
    rcases hlr.eq_or_lt with e | e
    · exact ⟨w, dl, v, by rwa [show w = l by linarith], w3, v3⟩
    · have := hl.mix hr (t := (w - l) / (r - l)) (div_nonneg (by linarith) (by linarith))
        (by rw [div_le_one (by linarith)]; linarith)
      have hne : r - l ≠ 0 := by linarith
      rw [show l + (w - l) / (r - l) * (r - l) = w by field_simp; ring, sub_self, mul_zero, add_zero] at this
      exact ⟨w, _, v, this, w3, v3⟩
  · have := trunc_mono h.le
    exact ⟨l, dl, xs, hl, h1, by omega⟩

theorem covered_row {T : ℝ} {x : ℤ} {l r w xs xe : ℝ} (h1 : |xs - l| ≤ T) (h2 : |xe - r| ≤ T) (hl : l ≤ w)
    (hr : w ≤ r) (hw : ∀ v, |v - w| ≤ T → trunc v = x) : trunc xs ≤ x ∧ x ≤ trunc xe := by
  obtain ⟨a1, a2⟩ := abs_le.1 h1
  obtain ⟨b1, b2⟩ := abs_le.1 h2
  have T0 : 0 ≤ T := (abs_nonneg _).trans h1
  have e1 := hw (w + T) (by rw [add_sub_cancel_left, abs_of_nonneg T0])
  have e2 := hw (w - T) (by rw [show w - T - w = -T by ring, abs_neg, abs_of_nonneg T0])
  rw [← e1]
  refine ⟨trunc_mono (by linarith), ?_⟩
  rw [e1, ← e2]
  exact trunc_mono (by linarith)

theorem inSnapped_bound {p1 p2 p3 : Vec3} {B : ℝ} (s1 : |p1.x| ≤ B) (s2 : |p2.x| ≤ B) (s3 : |p3.x| ≤ B) {w y d : ℝ}
    (h : InSnapped p1 p2 p3 w y d) : |w| ≤ B := by
  obtain ⟨a, b, c, ha, hb, hc, h1, h2, -, -⟩ := h
  have l1 := abs_le.1 s1
  have l2 := abs_le.1 s2
  have l3 := abs_le.1 s3
  have e1 := mul_le_mul_of_nonneg_left l1.2 ha
  have e2 := mul_le_mul_of_nonneg_left l2.2 hb
  have e3 := mul_le_mul_of_nonneg_left l3.2 hc
  have f1 := mul_le_mul_of_nonneg_left l1.1 ha
  have f2 := mul_le_mul_of_nonneg_left l2.1 hb
  have f3 := mul_le_mul_of_nonneg_left l3.1 hc
  obtain rfl : a = 1 - b - c := by linarith
  rw [abs_le]
  constructor <;> linarith

section

variable {u : ℝ} {rnd : ℝ → ℝ}

theorem sorted_ok (h : RelErr u rnd) (hu : 0 ≤ u) (hu' : u ≤ 1 / 1000) (width : ℕ) {height : ℕ}
    (hh : (2 * height + 60) * u ≤ 1) {A B C P a b a' b' : Vec3} (tri : ℕ) (hs : Sorted A B C P) (sA : Small A) (sB : Small B)
    {M : ℝ} (hM : M < 2 ^ 30) (mA : |A.x| ≤ M) (mB : |B.x| ≤ M) (mC : |C.x| ≤ M)
    (hab : a = P ∧ b = B ∨ a = B ∧ b = P) (hle : a.x ≤ b.x) (ha : |a'.x - a.x| ≤ 6 * u * M) (hb : |b'.x - b.x| ≤ 6 * u * M) :
    ∃ cs1 cs2, part rnd width height (trunc A.y) (trunc B.y) (edge rnd A a' (trunc B.y - trunc A.y))
        (edge rnd A b' (trunc B.y - trunc A.y)) tri = .ok cs1 ∧
      part rnd width height (trunc B.y) (trunc C.y) (edge rnd a' C (trunc C.y - trunc B.y))
        (edge rnd b' C (trunc C.y - trunc B.y)) tri = .ok cs2 ∧
      Covers ((2 * height + 60) * u * M) width height A B C tri (cs1 ++ cs2) := by
  have ia : InSnapped A B C a.x (trunc B.y) a.z := by
    rcases hab with ⟨rfl, -⟩ | ⟨rfl, -⟩
    · exact hs.prime
    · exact inSnapped_second _ _ _
  have ib : InSnapped A B C b.x (trunc B.y) b.z := by
    rcases hab with ⟨-, rfl⟩ | ⟨-, rfl⟩
    · exact inSnapped_second _ _ _
    · exact hs.prime
  have lB : a.x ≤ B.x := by rcases hab with ⟨rfl, rfl⟩ | ⟨rfl, rfl⟩ <;> first | exact hle | exact le_rfl
  have lP : a.x ≤ P.x := by rcases hab with ⟨rfl, rfl⟩ | ⟨rfl, rfl⟩ <;> first | exact hle | exact le_rfl
  have rB : B.x ≤ b.x := by rcases hab with ⟨rfl, rfl⟩ | ⟨rfl, rfl⟩ <;> first | exact hle | exact le_rfl
  have rP : P.x ≤ b.x := by rcases hab with ⟨rfl, rfl⟩ | ⟨rfl, rfl⟩ <;> first | exact hle | exact le_rfl
  have i1 := inSnapped_first A B C
  have i3 := inSnapped_third A B C
  have m1 := hs.ab
  have m2 := hs.bc
  have r1 := small_row sA
  have r2 := small_row sB
  have M0 : 0 ≤ M := (abs_nonneg _).trans mA
  have uM : 0 ≤ u * M := mul_nonneg hu M0
  have ma := inSnapped_bound mA mB mC ia
  have mb := inSnapped_bound mA mB mC ib
  have hT : (2 * height + 60) * u * M ≤ M := by
    have := mul_le_mul_of_nonneg_right hh M0
    linarith
  have zero : ∀ x : ℝ, |x - x| ≤ 6 * u * M := by
    intro x
    rw [sub_self, abs_zero]
    linarith
  have bound : ∀ {w y d : ℝ}, InSnapped A B C w y d → |w| + (2 * height + 60) * u * M < 2 ^ 31 := by
    intro w y d hin
    have := inSnapped_bound mA mB mC hin
    linarith
  obtain ⟨cs1, hc1, p1, q1⟩ := part_ok width height (by omega) tri
    (tracks_edge h hu hu' hh (y0 := trunc A.y) (y1 := trunc B.y) mA ma (zero _) ha)
    (tracks_edge h hu hu' hh (y0 := trunc A.y) (y1 := trunc B.y) mA mb (zero _) hb)
    (fun y g0 g1 => ⟨bound (i1.along ia g0 g1), bound (i1.along ib g0 g1)⟩)
  obtain ⟨cs2, hc2, p2, q2⟩ := part_ok width height (by omega) tri
    (tracks_edge h hu hu' hh (y0 := trunc B.y) (y1 := trunc C.y) ma mC ha (zero _))
    (tracks_edge h hu hu' hh (y0 := trunc B.y) (y1 := trunc C.y) mb mC hb (zero _))
    (fun y g0 g1 => ⟨bound (ia.along i3 g0 g1), bound (ib.along i3 g0 g1)⟩)
  refine ⟨cs1, cs2, hc1, hc2, fun c hc => ?_, fun x y hi hcov => ?_⟩
  · rcases List.mem_append.1 hc with hc | hc
    · obtain ⟨g0, g1, g2, g3, g4, xs, xe, e1, e2, e3, e4⟩ := p1 c hc
      have := le_trans (le_max_left _ _) e3
      have := le_trans e4 (min_le_left _ _)
      exact ⟨⟨by omega, by omega, g2, g3⟩, g4, touched_of_row (i1.along ia g0 g1) (i1.along ib g0 g1)
        (along_le (by omega) (by omega) hle) e1 e2 e3 (e4.trans (min_le_right _ _))⟩
    · obtain ⟨g0, g1, g2, g3, g4, xs, xe, e1, e2, e3, e4⟩ := p2 c hc
      have := le_trans (le_max_left _ _) e3
      have := le_trans e4 (min_le_left _ _)
      exact ⟨⟨by omega, by omega, g2, g3⟩, g4, touched_of_row (ia.along i3 g0 g1) (ib.along i3 g0 g1)
        (along_start_le (by omega) (by omega) hle) e1 e2 e3 (e4.trans (min_le_right _ _))⟩
  · obtain ⟨w, d, hin, hw⟩ := hcov
    obtain ⟨w0, w1, w2, w3⟩ := hi
    obtain ⟨y0, y1⟩ := hs.rows hin
    rcases lt_or_ge y (trunc B.y) with e | e
    · obtain ⟨l, r⟩ := hs.upper lB lP rB rP hin (by omega)
      obtain ⟨xs, xe, e1, e2, e3⟩ := q1 y y0 e.le w2 w3
      obtain ⟨l', r'⟩ := covered_row e1 e2 l r hw
      obtain ⟨c, hc, hx⟩ := e3 x (by omega) (by omega)
      exact ⟨c, List.mem_append_left _ hc, hx⟩
    · obtain ⟨l, r⟩ := hs.lower lB lP rB rP hin e
      obtain ⟨xs, xe, e1, e2, e3⟩ := q2 y e y1 w2 w3
      obtain ⟨l', r'⟩ := covered_row e1 e2 l r hw
      obtain ⟨c, hc, hx⟩ := e3 x (by omega) (by omega)
      exact ⟨c, List.mem_append_right _ hc, hx⟩

theorem flat_ok (rnd : ℝ → ℝ) (width height : ℕ) {A B C : Vec3} (tri : ℕ) (h1 : trunc A.y = trunc B.y)
    (h2 : trunc B.y = trunc C.y) (sA : Small A) (sB : Small B) (sC : Small C) (x1 : A.x ≤ B.x) (x2 : B.x ≤ C.x) {T : ℝ}
    (T0 : 0 ≤ T) (T1 : T ≤ 2 ^ 30) :
    ∃ cs, part rnd width height (trunc A.y) (trunc B.y) (still A) (still C) tri = .ok cs ∧
      Covers T width height A B C tri cs := by
  have i1 := inSnapped_first A B C
  have i3 := inSnapped_third A B C
  rw [← h2] at i3
  rw [h1] at i1
  have hmax : ∀ (u d y : ℝ), InSnapped A B C u y d → y = trunc B.y ∧ A.x ≤ u ∧ u ≤ C.x := by
    rintro u d y ⟨a, b, c, ha, hb, hc, w1, w2, w3, -⟩
    obtain rfl : a = 1 - b - c := by linarith
    have e1 := mul_le_mul_of_nonneg_left x1 hb
    have e2 := mul_le_mul_of_nonneg_left (x1.trans x2) hc
    have e3 := mul_le_mul_of_nonneg_left (x1.trans x2) ha
    have e4 := mul_le_mul_of_nonneg_left x2 hb
    refine ⟨?_, by linarith, by linarith⟩
    rw [w3, h1, ← h2]
    ring
  have r1 := small_row sB
  rw [h1]
  obtain ⟨cs, hc, p, q⟩ := part_ok width height (by omega) tri (tracks_still rnd height A (trunc B.y) T0)
    (tracks_still rnd height C (trunc B.y) T0) (fun y _ _ => ⟨by have := sA.1; linarith, by have := sC.1; linarith⟩)
  refine ⟨cs, hc, fun c hc => ?_, fun x y hi hcov => ?_⟩
  · obtain ⟨g0, g1, g2, g3, g4, xs, xe, e1, e2, e3, e4⟩ := p c hc
    have hy : c.y = trunc B.y := by omega
    have := le_trans (le_max_left _ _) e3
    have := le_trans e4 (min_le_left _ _)
    exact ⟨⟨by omega, by omega, g2, g3⟩, g4, touched_of_row (by rw [hy]; exact i1) (by rw [hy]; exact i3) (x1.trans x2) e1 e2 e3
      (e4.trans (min_le_right _ _))⟩
  · obtain ⟨w, d, hin, hw⟩ := hcov
    obtain ⟨w0, w1, w2, w3⟩ := hi
    obtain ⟨hy, l, r⟩ := hmax w d _ hin
    have hy : y = trunc B.y := by exact_mod_cast hy
    obtain ⟨xs, xe, e1, e2, e3⟩ := q y (by omega) (by omega) w2 w3
    obtain ⟨l', r'⟩ := covered_row e1 e2 l r hw
    exact e3 x (by omega) (by omega)

theorem triangle2D_ok (h : RelErr u rnd) (hu : 0 ≤ u) (hu' : u ≤ 1 / 1000) (width : ℕ) {height : ℕ}
    (hh : (2 * height + 60) * u ≤ 1) (culling : Bool) {p1 p2 p3 : Vec3} (tri : ℕ) (s1 : Small p1) (s2 : Small p2)
    (s3 : Small p3) {M : ℝ} (hM : M < 2 ^ 30) (m1 : |p1.x| ≤ M) (m2 : |p2.x| ≤ M) (m3 : |p3.x| ≤ M) :
    ∃ cs, triangle2D rnd width height culling p1 p2 p3 tri = .ok cs ∧
      ((culling = true ∧ culls rnd p1 p2 p3 ∨ ¬ InWindow width height p1 p2 p3) → cs = []) ∧
      (¬ (culling = true ∧ culls rnd p1 p2 p3) → InWindow width height p1 p2 p3 →
        Covers ((2 * height + 60) * u * M) width height p1 p2 p3 tri cs) := by
  have M0 : 0 ≤ M := (abs_nonneg _).trans m1
  have uM : 0 ≤ u * M := mul_nonneg hu M0
  have hT : (2 * height + 60) * u * M ≤ M := by
    have := mul_le_mul_of_nonneg_right hh M0
    linarith
  have hT0 : 0 ≤ (2 * height + 60) * u * M := by positivity
  unfold triangle2D
  by_cases hc : culling = true ∧ culls rnd p1 p2 p3
  · rw [if_pos hc]
    exact ⟨[], rfl, fun _ => rfl, fun h => absurd hc h⟩
  rw [if_neg hc]
  simp only [(small_cast s1).1, (small_cast s1).2, (small_cast s2).1, (small_cast s2).2, (small_cast s3).1,
    (small_cast s3).2, bind, Except.bind, pure, Except.pure]
  by_cases hw : InWindow width height p1 p2 p3
  swap
  · have hw' := hw
    unfold InWindow at hw'
    rw [if_neg hw']
    exact ⟨[], rfl, fun _ => rfl, fun _ h => absurd h hw⟩
  have hw' := hw
  unfold InWindow at hw'
  rw [if_pos hw']
  have key : ∀ e : Exec (List PixelCall), (∃ cs, e = .ok cs ∧ Covers ((2 * height + 60) * u * M) width height p1 p2 p3 tri cs) →
      ∃ cs, e = .ok cs ∧ ((culling = true ∧ culls rnd p1 p2 p3 ∨ ¬ InWindow width height p1 p2 p3) → cs = []) ∧
      (¬ (culling = true ∧ culls rnd p1 p2 p3) → InWindow width height p1 p2 p3 →
        Covers ((2 * height + 60) * u * M) width height p1 p2 p3 tri cs) := by
    rintro e ⟨cs, h1, h2⟩
    exact ⟨cs, h1, fun h => absurd hw (h.resolve_left hc), fun _ _ => h2⟩
  apply key
  have hsm : ∀ f : Vec3 → ℝ, Small (sort f p1 p2 p3).1 ∧ Small (sort f p1 p2 p3).2.1 ∧ Small (sort f p1 p2 p3).2.2 := by
    intro f
    exact (sort_iff (Q := fun a b c => Small a ∧ Small b ∧ Small c) (fun a b c h => ⟨h.2.1, h.1, h.2.2⟩)
      (fun a b c h => ⟨h.1, h.2.2, h.2.1⟩) f p1 p2 p3).2 ⟨s1, s2, s3⟩
  split_ifs with hflat
  · have hall := (sort_iff (Q := fun a b c => trunc a.y = trunc b.y ∧ trunc b.y = trunc c.y)
      (fun a b c h => ⟨h.1.symm, h.1.trans h.2⟩) (fun a b c h => ⟨h.1.trans h.2, h.2.symm⟩) Vec3.x p1 p2 p3).2
      ⟨by omega, by omega⟩
    obtain ⟨⟨o1, o2⟩, -⟩ := sort_cases Vec3.x p1 p2 p3
    have hback := fun cs => sort_iff (Q := fun a b c => Covers ((2 * height + 60) * u * M) width height a b c tri cs)
      (fun a b c h => h.swap12) (fun a b c h => h.swap23) Vec3.x p1 p2 p3
    obtain ⟨k1, k2, k3⟩ := hsm Vec3.x
    generalize sort Vec3.x p1 p2 p3 = r at *
    obtain ⟨A, B, C⟩ := r
    obtain ⟨cs, e1, e2⟩ := flat_ok rnd width height tri hall.1 hall.2 k1 k2 k3 o1 o2 hT0 (hT.trans hM.le)
    simp only [(small_cast k1).2, (small_cast k2).2]
    exact ⟨cs, e1, (hback cs).1 e2⟩
  · have hall := (sort_iff (Q := fun a b c => ¬ (trunc a.y = trunc b.y ∧ trunc b.y = trunc c.y))
      (fun a b c h g => h ⟨g.1.symm, g.1.trans g.2⟩) (fun a b c h g => h ⟨g.1.trans g.2, g.2.symm⟩) Vec3.y p1 p2 p3).2
      (fun g => hflat (by omega))
    obtain ⟨⟨o1, o2⟩, -⟩ := sort_cases Vec3.y p1 p2 p3
    have hback := fun cs => sort_iff (Q := fun a b c => Covers ((2 * height + 60) * u * M) width height a b c tri cs)
      (fun a b c h => h.swap12) (fun a b c h => h.swap23) Vec3.y p1 p2 p3
    obtain ⟨n1, n2, n3⟩ := (sort_iff (Q := fun a b c => |a.x| ≤ M ∧ |b.x| ≤ M ∧ |c.x| ≤ M) (fun a b c h => ⟨h.2.1, h.1, h.2.2⟩)
      (fun a b c h => ⟨h.1, h.2.2, h.2.1⟩) Vec3.y p1 p2 p3).2 ⟨m1, m2, m3⟩
    obtain ⟨k1, k2, k3⟩ := hsm Vec3.y
    generalize sort Vec3.y p1 p2 p3 = r at *
    obtain ⟨A, B, C⟩ := r
    simp only at hall o1 o2 k1 k2 k3 n1 n2 n3 hback
    have t1 := trunc_mono o1
    have t2 := trunc_mono o2
    have r1 := small_row k1
    have r2 := small_row k2
    have r3 := small_row k3
    have i1 : intOp (trunc B.y - trunc A.y) = .ok (trunc B.y - trunc A.y) := by rw [intOp, if_pos (by omega)]
    have i2 : intOp (trunc C.y - trunc B.y) = .ok (trunc C.y - trunc B.y) := by rw [intOp, if_pos (by omega)]
    have i3 : intOp (trunc C.y - trunc A.y) = .ok (trunc C.y - trunc A.y) := by rw [intOp, if_pos (by omega)]
    simp only [(small_cast k1).2, (small_cast k2).2, (small_cast k3).2, i1, i2, i3]
    have hac : trunc A.y < trunc C.y := by omega
    have hMM : ((trunc C.y : ℝ) - trunc A.y) ≠ 0 := by
      have : (trunc A.y : ℝ) < trunc C.y := by exact_mod_cast hac
      linarith
    have hsum : (trunc C.y - trunc B.y) + (trunc B.y - trunc A.y) = trunc C.y - trunc A.y := by ring
    have hsum' : ((trunc C.y - trunc B.y : ℤ) : ℝ) + ((trunc B.y - trunc A.y : ℤ) : ℝ) = (trunc C.y : ℝ) - trunc A.y := by
      push_cast
      ring
    have hpx := prime_err h hu hu' (m := trunc C.y - trunc B.y) (n := trunc B.y - trunc A.y) (by omega) (by omega) (by omega) n1 n3
    rw [hsum, hsum'] at hpx
    generalize primeCoord rnd (trunc C.y - trunc B.y) (trunc B.y - trunc A.y) (trunc C.y - trunc A.y) A.x C.x = px at *
    generalize primeCoord rnd (trunc C.y - trunc B.y) (trunc B.y - trunc A.y) (trunc C.y - trunc A.y) A.y C.y = py at *
    generalize primeCoord rnd (trunc C.y - trunc B.y) (trunc B.y - trunc A.y) (trunc C.y - trunc A.y) A.z C.z = pz at *
    obtain ⟨P, hPx, hPz⟩ : ∃ P : Vec3, P.x = (((trunc C.y - trunc B.y : ℤ) : ℝ) * A.x + ((trunc B.y - trunc A.y : ℤ) : ℝ) * C.x) /
        ((trunc C.y : ℝ) - trunc A.y) ∧ P.z = (((trunc C.y - trunc B.y : ℤ) : ℝ) * A.z + ((trunc B.y - trunc A.y : ℤ) : ℝ) * C.z) /
        ((trunc C.y : ℝ) - trunc A.y) := ⟨⟨_, 0, _⟩, rfl, rfl⟩
    rw [← hPx] at hpx
    have hs : Sorted A B C P := by
      refine ⟨t1, t2, hac, ?_, ?_⟩
      · rw [hPx]
        push_cast
        field_simp
      · rw [hPz]
        push_cast
        field_simp
    have zero : ∀ x : ℝ, |x - x| ≤ 6 * u * M := by
      intro x
      rw [sub_self, abs_zero]
      linarith
    obtain ⟨q1, q2⟩ := abs_le.1 hpx
    by_cases hx : px > B.x
    · simp only [hx, if_true]
      rcases le_or_gt P.x B.x with g | g
      · obtain ⟨c1, c2, e1, e2, e3⟩ := sorted_ok h hu hu' width hh (a' := B) (b' := ⟨px, py, pz⟩) tri hs k1 k2 hM n1 n2 n3
          (.inl ⟨rfl, rfl⟩) g (abs_le.2 ⟨by linarith, by linarith⟩) (abs_le.2 ⟨by dsimp only; linarith, by dsimp only; linarith⟩)
        simp only [e1, e2]
        exact ⟨_, rfl, (hback _).1 e3⟩
      · obtain ⟨c1, c2, e1, e2, e3⟩ := sorted_ok h hu hu' width hh (a' := B) (b' := ⟨px, py, pz⟩) tri hs k1 k2 hM n1 n2 n3
          (.inr ⟨rfl, rfl⟩) g.le (zero _) hpx
        simp only [e1, e2]
        exact ⟨_, rfl, (hback _).1 e3⟩
    · simp only [hx, if_false]
      rw [not_lt] at hx
      rcases le_or_gt P.x B.x with g | g
      · obtain ⟨c1, c2, e1, e2, e3⟩ := sorted_ok h hu hu' width hh (a' := ⟨px, py, pz⟩) (b' := B) tri hs k1 k2 hM n1 n2 n3
          (.inl ⟨rfl, rfl⟩) g hpx (zero _)
        simp only [e1, e2]
        exact ⟨_, rfl, (hback _).1 e3⟩
      · obtain ⟨c1, c2, e1, e2, e3⟩ := sorted_ok h hu hu' width hh (a' := ⟨px, py, pz⟩) (b' := B) tri hs k1 k2 hM n1 n2 n3
          (.inr ⟨rfl, rfl⟩) g.le (abs_le.2 ⟨by dsimp only; linarith, by dsimp only; linarith⟩) (abs_le.2 ⟨by linarith, by linarith⟩)
        simp only [e1, e2]
        exact ⟨_, rfl, (hback _).1 e3⟩

/-- The culling test, away from triangles seen edge-on. -/
theorem culls_iff (h : RelErr u rnd) (hu : 0 ≤ u) (hu' : u ≤ 1 / 1000) {p1 p2 p3 : Vec3}
    (hc : 4 * u * (|(p2.x - p1.x) * (p3.y - p1.y)| + |(p3.x - p1.x) * (p2.y - p1.y)|) <
      |(p2.x - p1.x) * (p3.y - p1.y) - (p3.x - p1.x) * (p2.y - p1.y)|) :
    culls rnd p1 p2 p3 ↔ Raster.culls p1 p2 p3 := by
  have prod : ∀ a b : ℝ, |rnd (rnd a * rnd b) - a * b| ≤ 3.1 * u * |a * b| := by
    intro a b
    have ha := h a
    have hb := h b
    have hA : |rnd a| ≤ 1.001 * |a| := by
      have := abs_sub_abs_le_abs_sub (rnd a) a
      have := mul_le_mul_of_nonneg_right hu' (abs_nonneg a)
      linarith
    have d1 : |rnd a * rnd b - a * b| ≤ 2.001 * u * |a * b| := by
      have e : rnd a * rnd b - a * b = rnd a * (rnd b - b) + (rnd a - a) * b := by ring
      have q1 : |rnd a * (rnd b - b)| ≤ 1.001 * |a| * (u * |b|) := by
        rw [abs_mul]
        exact mul_le_mul hA hb (abs_nonneg _) (by positivity)
      have q2 : |(rnd a - a) * b| ≤ u * |a| * |b| := by
        rw [abs_mul]
        exact mul_le_mul_of_nonneg_right ha (abs_nonneg _)
      rw [e, abs_mul a b]
      have := abs_add_le (rnd a * (rnd b - b)) ((rnd a - a) * b)
      linarith
    refine (rnd_err h hu d1 le_rfl).trans ?_
    have w0 := mul_nonneg hu (abs_nonneg (a * b))
    have := mul_le_mul_of_nonneg_right hu' w0
    linarith
  have sgn : ∀ x : ℝ, rnd x < 0 ↔ x < 0 := by
    intro x
    obtain ⟨a, b⟩ := abs_le.1 (h x)
    constructor
    · intro hx
      by_contra h0
      rw [not_lt] at h0
      rw [abs_of_nonneg h0] at a
      have := mul_le_mul_of_nonneg_right hu' h0
      linarith
    · intro hx
      rw [abs_of_neg hx] at b
      have := mul_le_mul_of_nonneg_right hu' (neg_nonneg.2 hx.le)
      linarith
  unfold culls Raster.culls
  rw [sgn, not_iff_not]
  have d1 := abs_le.1 (prod (p2.x - p1.x) (p3.y - p1.y))
  have d2 := abs_le.1 (prod (p3.x - p1.x) (p2.y - p1.y))
  generalize (p2.x - p1.x) * (p3.y - p1.y) = a at *
  generalize (p3.x - p1.x) * (p2.y - p1.y) = b at *
  generalize rnd (rnd (p2.x - p1.x) * rnd (p3.y - p1.y)) = a' at *
  generalize rnd (rnd (p3.x - p1.x) * rnd (p2.y - p1.y)) = b' at *
  have w1 := mul_nonneg hu (abs_nonneg a)
  have w2 := mul_nonneg hu (abs_nonneg b)
  constructor
  · intro hx
    by_contra h0
    rw [not_lt] at h0
    rw [abs_of_nonneg h0] at hc
    linarith
  · intro hx
    rw [abs_of_neg hx] at hc
    linarith

end

end Geo.Rounded
