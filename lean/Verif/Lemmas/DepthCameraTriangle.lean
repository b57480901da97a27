import Verif.Lemmas.DepthCameraRow

/-!
# The rasteriser on one triangle
-/

namespace Geo

open Spec Raster

/-! ## Affine combinations -/

theorem Spec.OnSnapped.mix {p1 p2 p3 : Vec3} {u y d u' y' d' : ℝ} (h : OnSnapped p1 p2 p3 u y d)
    (h' : OnSnapped p1 p2 p3 u' y' d') (t : ℝ) :
    OnSnapped p1 p2 p3 (u + t * (u' - u)) (y + t * (y' - y)) (d + t * (d' - d)) := by
  obtain ⟨a, b, c, h1, h2, h3, h4⟩ := h
  obtain ⟨a', b', c', h1', h2', h3', h4'⟩ := h'
  refine ⟨a + t * (a' - a), b + t * (b' - b), c + t * (c' - c), ?_, ?_, ?_, ?_⟩
  · linear_combination (1 - t) * h1 + t * h1'
  · linear_combination (1 - t) * h2 + t * h2'
  · linear_combination (1 - t) * h3 + t * h3'
  · linear_combination (1 - t) * h4 + t * h4'

theorem Spec.InSnapped.mix {p1 p2 p3 : Vec3} {u y d u' y' d' : ℝ} (h : InSnapped p1 p2 p3 u y d)
    (h' : InSnapped p1 p2 p3 u' y' d') {t : ℝ} (t0 : 0 ≤ t) (t1 : t ≤ 1) :
    InSnapped p1 p2 p3 (u + t * (u' - u)) (y + t * (y' - y)) (d + t * (d' - d)) := by
  obtain ⟨a, b, c, ha, hb, hc, h1, h2, h3, h4⟩ := h
  obtain ⟨a', b', c', ha', hb', hc', h1', h2', h3', h4'⟩ := h'
  have s : 0 ≤ 1 - t := by linarith
  refine ⟨(1 - t) * a + t * a', (1 - t) * b + t * b', (1 - t) * c + t * c',
    by positivity, by positivity, by positivity, ?_, ?_, ?_, ?_⟩
  · linear_combination (1 - t) * h1 + t * h1'
  · linear_combination (1 - t) * h2 + t * h2'
  · linear_combination (1 - t) * h3 + t * h3'
  · linear_combination (1 - t) * h4 + t * h4'

theorem Spec.InSnapped.on {p1 p2 p3 : Vec3} {u y d : ℝ} : InSnapped p1 p2 p3 u y d → OnSnapped p1 p2 p3 u y d :=
  fun ⟨a, b, c, _, _, _, h⟩ => ⟨a, b, c, h⟩

theorem inSnapped_first (p1 p2 p3 : Vec3) : InSnapped p1 p2 p3 p1.x (trunc p1.y) p1.z :=
  ⟨1, 0, 0, by norm_num, le_rfl, le_rfl, by norm_num, by ring, by ring, by ring⟩

theorem inSnapped_second (p1 p2 p3 : Vec3) : InSnapped p1 p2 p3 p2.x (trunc p2.y) p2.z :=
  ⟨0, 1, 0, le_rfl, by norm_num, le_rfl, by norm_num, by ring, by ring, by ring⟩

theorem inSnapped_third (p1 p2 p3 : Vec3) : InSnapped p1 p2 p3 p3.x (trunc p3.y) p3.z :=
  ⟨0, 0, 1, le_rfl, le_rfl, by norm_num, by norm_num, by ring, by ring, by ring⟩

theorem inSnapped_swap12 {p1 p2 p3 : Vec3} {u y d : ℝ} : InSnapped p1 p2 p3 u y d → InSnapped p2 p1 p3 u y d :=
  fun ⟨a, b, c, ha, hb, hc, h1, h2, h3, h4⟩ =>
    ⟨b, a, c, hb, ha, hc, by linarith, by linarith, by linarith, by linarith⟩

theorem inSnapped_swap23 {p1 p2 p3 : Vec3} {u y d : ℝ} : InSnapped p1 p2 p3 u y d → InSnapped p1 p3 p2 u y d :=
  fun ⟨a, b, c, ha, hb, hc, h1, h2, h3, h4⟩ =>
    ⟨a, c, b, ha, hc, hb, by linarith, by linarith, by linarith, by linarith⟩

theorem onSnapped_swap12 {p1 p2 p3 : Vec3} {u y d : ℝ} : OnSnapped p1 p2 p3 u y d → OnSnapped p2 p1 p3 u y d :=
  fun ⟨a, b, c, h1, h2, h3, h4⟩ => ⟨b, a, c, by linarith, by linarith, by linarith, by linarith⟩

theorem onSnapped_swap23 {p1 p2 p3 : Vec3} {u y d : ℝ} : OnSnapped p1 p2 p3 u y d → OnSnapped p1 p3 p2 u y d :=
  fun ⟨a, b, c, h1, h2, h3, h4⟩ => ⟨a, c, b, by linarith, by linarith, by linarith, by linarith⟩

/-! ## Truncation of an interval -/

theorem trunc_interval {l r : ℝ} {x : ℤ} (hlr : l ≤ r) (h1 : max 0 (trunc l) ≤ x) (h2 : x ≤ trunc r) :
    ∃ u, l ≤ u ∧ u ≤ r ∧ trunc u = x := by
  have hx : 0 ≤ x := le_trans (le_max_left _ _) h1
  have hl : trunc l ≤ x := le_trans (le_max_right _ _) h1
  rcases lt_or_ge r 0 with hr | hr
  · have : trunc r ≤ 0 := by
      rw [trunc_eq_ceil hr]
      exact Int.ceil_le.2 (by exact_mod_cast hr.le)
    exact ⟨r, hlr, le_rfl, by omega⟩
  · rcases le_or_gt l x with h | h
    · refine ⟨x, h, ?_, trunc_int x⟩
      rw [trunc_eq_floor hr] at h2
      exact (Int.le_floor.1 h2)
    · refine ⟨l, le_rfl, hlr, le_antisymm hl ?_⟩
      have : (0 : ℝ) ≤ l := by
        have : (0 : ℝ) ≤ x := by exact_mod_cast hx
        linarith
      rw [trunc_eq_floor this]
      exact Int.le_floor.2 h.le

/-! ## What is known of a drawn pixel -/

/-- A pixel drawn for a triangle. -/
def Drawn (width height : ℕ) (p1 p2 p3 : Vec3) (tri : ℕ) (c : PixelCall) : Prop :=
  InImage width height c.x c.y ∧ c.tri = tri ∧ (∃ u d, trunc u = c.x ∧ InSnapped p1 p2 p3 u c.y d) ∧
    ((c.x = 0 ∧ (c.depth = .nan ∨ c.depth = .fin 0) ∧ ∃ u d, u < 0 ∧ InSnapped p1 p2 p3 u c.y d) ∨
      ∃ u d, c.depth = (Fl.fin 1).div (.fin d) ∧ (c.x : ℝ) ≤ u ∧ u < c.x + 1 ∧ OnSnapped p1 p2 p3 u c.y d ∧
        ∀ u' d', u ≤ u' → InSnapped p1 p2 p3 u' c.y d' → InSnapped p1 p2 p3 u c.y d)

theorem Drawn.swap12 {width height : ℕ} {p1 p2 p3 : Vec3} {tri : ℕ} {c : PixelCall}
    (h : Drawn width height p1 p2 p3 tri c) : Drawn width height p2 p1 p3 tri c := by
  obtain ⟨h1, h2, ⟨u, d, h3, h4⟩, h5⟩ := h
  refine ⟨h1, h2, ⟨u, d, h3, inSnapped_swap12 h4⟩, ?_⟩
  rcases h5 with ⟨a, b, u, d, e, f⟩ | ⟨u, d, a, b, e, f, g⟩
  · exact .inl ⟨a, b, u, d, e, inSnapped_swap12 f⟩
  · exact .inr ⟨u, d, a, b, e, onSnapped_swap12 f, fun u' d' h i => inSnapped_swap12 (g u' d' h (inSnapped_swap12 i))⟩

theorem Drawn.swap23 {width height : ℕ} {p1 p2 p3 : Vec3} {tri : ℕ} {c : PixelCall}
    (h : Drawn width height p1 p2 p3 tri c) : Drawn width height p1 p3 p2 tri c := by
  obtain ⟨h1, h2, ⟨u, d, h3, h4⟩, h5⟩ := h
  refine ⟨h1, h2, ⟨u, d, h3, inSnapped_swap23 h4⟩, ?_⟩
  rcases h5 with ⟨a, b, u, d, e, f⟩ | ⟨u, d, a, b, e, f, g⟩
  · exact .inl ⟨a, b, u, d, e, inSnapped_swap23 f⟩
  · exact .inr ⟨u, d, a, b, e, onSnapped_swap23 f, fun u' d' h i => inSnapped_swap23 (g u' d' h (inSnapped_swap23 i))⟩

/-- A pixel of a row between two points of the triangle, beyond the second of which there is nothing in the row. -/
theorem drawn_of_row {width height : ℕ} {p1 p2 p3 : Vec3} {tri : ℕ} {c : PixelCall} {xs xe ds de : ℝ}
    (hs : InSnapped p1 p2 p3 xs c.y ds) (he : InSnapped p1 p2 p3 xe c.y de) (hle : xs ≤ xe)
    (hmax : xs = xe ∨ ∀ u d, InSnapped p1 p2 p3 u c.y d → u ≤ xe) (h0 : 0 ≤ c.y) (h1 : c.y < height)
    (h : RowPixel width c.y xs xe ds de tri c) : Drawn width height p1 p2 p3 tri c := by
  obtain ⟨-, ht, hx0, hx1, hd⟩ := h
  have hw : c.x ≤ (width : ℤ) - 1 := hx1.trans (min_le_left _ _)
  have h00 : 0 ≤ c.x := (le_max_left _ _).trans hx0
  refine ⟨⟨h00, by omega, h0, h1⟩, ht, ?_, ?_⟩
  · obtain ⟨u, g1, g2, g3⟩ := trunc_interval hle hx0 (hx1.trans (min_le_right _ _))
    rcases hle.eq_or_lt with e | e
    · exact ⟨u, ds, g3, by rwa [show u = xs by linarith]⟩
    · have hne : xe - xs ≠ 0 := by linarith
      have := hs.mix he (t := (u - xs) / (xe - xs)) (div_nonneg (by linarith) (by linarith))
        (by rw [div_le_one (by linarith)]; linarith)
      rw [show xs + (u - xs) / (xe - xs) * (xe - xs) = u by field_simp; ring, sub_self, mul_zero, add_zero] at this
      exact ⟨u, _, g3, this⟩
  · rcases hd with ⟨e, hn, hv⟩ | ⟨hor, t, u, hv, hu, g1, g2, t0, t1⟩
    · left
      refine ⟨?_, ?_, xs, ds, hn, hs⟩
      · have : trunc xe ≤ 0 := by
          rw [← e, trunc_eq_ceil hn]
          exact Int.ceil_le.2 (by exact_mod_cast hn.le)
        have := hx1.trans (min_le_right _ _)
        omega
      · rcases hv with hv | hv
        · exact .inl hv.2
        · exact .inr hv.2
    · right
      refine ⟨u, _, hv, g1, g2, ?_, fun u' d' huu hin => ?_⟩
      · have := hs.on.mix he.on t
        rwa [← hu, sub_self, mul_zero, add_zero] at this
      · have hue : u ≤ xe := by
          rcases hmax with e | hmax
          · rw [hu, e]
            simp
          · exact huu.trans (hmax u' d' hin)
        have := hs.mix he t0 (t1 hue)
        rwa [← hu, sub_self, mul_zero, add_zero] at this

/-! ## The two parts -/

theorem Spec.InSnapped.bound {p1 p2 p3 : Vec3} (s1 : Small p1) (s2 : Small p2) (s3 : Small p3) {u y d : ℝ}
    (h : InSnapped p1 p2 p3 u y d) : -2 ^ 31 < u ∧ u < 2 ^ 31 := by
  obtain ⟨a, b, c, ha, hb, hc, h1, h2, -, -⟩ := h
  have l1 := abs_lt.1 s1.1
  have l2 := abs_lt.1 s2.1
  have l3 := abs_lt.1 s3.1
  have e1 := mul_le_mul_of_nonneg_left l1.2.le ha
  have e2 := mul_le_mul_of_nonneg_left l2.2.le hb
  have e3 := mul_le_mul_of_nonneg_left l3.2.le hc
  have f1 := mul_le_mul_of_nonneg_left l1.1.le ha
  have f2 := mul_le_mul_of_nonneg_left l2.1.le hb
  have f3 := mul_le_mul_of_nonneg_left l3.1.le hc
  constructor <;> linarith

theorem Spec.InSnapped.along {p1 p2 p3 : Vec3} {a b c d : ℝ} {y0 y1 : ℤ} (h : InSnapped p1 p2 p3 a y0 c)
    (h' : InSnapped p1 p2 p3 b y1 d) {y : ℤ} (g0 : y0 ≤ y) (g1 : y ≤ y1) :
    InSnapped p1 p2 p3 (along a b (y1 - y0) (y - y0)) y (along c d (y1 - y0) (y - y0)) := by
  rcases (g0.trans g1).eq_or_lt with e | e
  · obtain rfl : y = y0 := by omega
    subst e
    simpa [Geo.along] using h
  · have e' : (0 : ℝ) < y1 - y0 := by
      have : (y0 : ℝ) < y1 := by exact_mod_cast e
      linarith
    have k0 : (y0 : ℝ) ≤ y := by exact_mod_cast g0
    have k1 : (y : ℝ) ≤ y1 := by exact_mod_cast g1
    have := h.mix h' (t := (y - y0) / (y1 - y0)) (div_nonneg (by linarith) e'.le)
      (by rw [div_le_one e']; linarith)
    have hy : (y0 : ℝ) + (y - y0) / (y1 - y0) * (y1 - y0) = y := by
      field_simp
      ring
    rw [hy] at this
    unfold Geo.along
    push_cast
    have q : ∀ a b : ℝ, a + ((y : ℝ) - y0) * ((b - a) / (y1 - y0)) = a + (y - y0) / (y1 - y0) * (b - a) := by
      intro a b
      field_simp
    rw [q, q]
    exact this

theorem along_le {a b b' : ℝ} {m k : ℤ} (hm : 0 ≤ m) (hk : 0 ≤ k) (h : b ≤ b') : along a b m k ≤ along a b' m k := by
  unfold along
  have h1 : (0 : ℝ) ≤ k := by exact_mod_cast hk
  have h2 : (0 : ℝ) ≤ m := by exact_mod_cast hm
  have := mul_le_mul_of_nonneg_left (div_le_div_of_nonneg_right (sub_le_sub_right h a) h2) h1
  linarith

theorem along_start_le {a a' b : ℝ} {m k : ℤ} (hk : 0 ≤ k) (hkm : k ≤ m) (h : a ≤ a') : along a b m k ≤ along a' b m k := by
  unfold along
  rcases (hk.trans hkm).eq_or_lt with e | e
  · subst e
    simpa using h
  · have h2 : (0 : ℝ) < m := by exact_mod_cast e
    have h3 : (k : ℝ) ≤ m := by exact_mod_cast hkm
    have h4 : (k : ℝ) / m ≤ 1 := by rw [div_le_one h2]; exact h3
    have e1 : ∀ a : ℝ, a + k * ((b - a) / m) = k / m * b + (1 - k / m) * a := by intro a; field_simp; ring
    rw [e1, e1]
    have := mul_le_mul_of_nonneg_left h (sub_nonneg.2 h4)
    linarith

/-- The corners in order of their rows, with the point of the long edge in the row of the middle one. -/
structure Sorted (A B C P : Vec3) : Prop where
  ab : trunc A.y ≤ trunc B.y
  bc : trunc B.y ≤ trunc C.y
  ac : trunc A.y < trunc C.y
  px : P.x * ((trunc C.y : ℝ) - trunc A.y) = (trunc C.y - trunc B.y) * A.x + (trunc B.y - trunc A.y) * C.x
  pz : P.z * ((trunc C.y : ℝ) - trunc A.y) = (trunc C.y - trunc B.y) * A.z + (trunc B.y - trunc A.y) * C.z

theorem Sorted.prime {A B C P : Vec3} (h : Sorted A B C P) : InSnapped A B C P.x (trunc B.y) P.z := by
  have h1 : (trunc A.y : ℝ) ≤ trunc B.y := by exact_mod_cast h.ab
  have h2 : (trunc B.y : ℝ) ≤ trunc C.y := by exact_mod_cast h.bc
  have h3 : (trunc A.y : ℝ) < trunc C.y := by exact_mod_cast h.ac
  have h4 : (trunc C.y : ℝ) - trunc A.y ≠ 0 := by linarith
  refine ⟨(trunc C.y - trunc B.y) / (trunc C.y - trunc A.y), 0, (trunc B.y - trunc A.y) / (trunc C.y - trunc A.y),
    div_nonneg (by linarith) (by linarith), le_rfl, div_nonneg (by linarith) (by linarith), ?_, ?_, ?_, ?_⟩
  · field_simp; ring
  · field_simp; linear_combination h.px
  · field_simp; ring
  · field_simp; linear_combination h.pz

/-- The row of a point of the triangle is between the rows of its corners. -/
theorem Sorted.rows {A B C P : Vec3} (h : Sorted A B C P) {u d : ℝ} {y : ℤ} (hin : InSnapped A B C u y d) :
    trunc A.y ≤ y ∧ y ≤ trunc C.y := by
  obtain ⟨a, b, c, ha, hb, hc, w1, -, w3, -⟩ := hin
  have h1 : (trunc A.y : ℝ) ≤ trunc B.y := by exact_mod_cast h.ab
  have h2 : (trunc B.y : ℝ) ≤ trunc C.y := by exact_mod_cast h.bc
  have e1 := mul_le_mul_of_nonneg_left h1 hb
  have e2 := mul_le_mul_of_nonneg_left (h1.trans h2) hc
  have e3 := mul_le_mul_of_nonneg_left (h1.trans h2) ha
  have e4 := mul_le_mul_of_nonneg_left h2 hb
  obtain rfl : a = 1 - b - c := by linarith
  constructor
  · have : (trunc A.y : ℝ) ≤ y := by linarith
    exact_mod_cast this
  · have : (y : ℝ) ≤ trunc C.y := by linarith
    exact_mod_cast this

/-- Upper part: a point of the triangle is between the two edges. -/
theorem Sorted.upper {A B C P : Vec3} (h : Sorted A B C P) {l r : ℝ} (lB : l ≤ B.x) (lP : l ≤ P.x) (rB : B.x ≤ r)
    (rP : P.x ≤ r) {u d : ℝ} {y : ℤ} (hin : InSnapped A B C u y d) (hm : trunc A.y < trunc B.y) :
    along A.x l (trunc B.y - trunc A.y) (y - trunc A.y) ≤ u ∧ u ≤ along A.x r (trunc B.y - trunc A.y) (y - trunc A.y) := by
  obtain ⟨a, b, c, ha, hb, hc, w1, w2, w3, -⟩ := hin
  have hm' : (0 : ℝ) < trunc B.y - trunc A.y := by
    have : (trunc A.y : ℝ) < trunc B.y := by exact_mod_cast hm
    linarith
  have hM : (0 : ℝ) < trunc C.y - trunc A.y := by
    have : (trunc A.y : ℝ) < trunc C.y := by exact_mod_cast h.ac
    linarith
  have hp := h.px
  unfold along
  push_cast
  generalize (trunc A.y : ℝ) = ya at *
  generalize (trunc B.y : ℝ) = yb at *
  generalize (trunc C.y : ℝ) = yc at *
  have hc' : 0 ≤ c * (yc - ya) / (yb - ya) := div_nonneg (mul_nonneg hc hM.le) hm'.le
  obtain rfl : a = 1 - b - c := by linarith
  have hk : ((y : ℝ) - ya) / (yb - ya) = b + c * (yc - ya) / (yb - ya) := by
    rw [w3]
    field_simp
    ring
  have hu : u = A.x + b * (B.x - A.x) + c * (yc - ya) / (yb - ya) * (P.x - A.x) := by
    rw [w2]
    field_simp
    linear_combination (-c) * hp
  have q : ∀ r : ℝ, A.x + ((y : ℝ) - ya) * ((r - A.x) / (yb - ya)) = A.x + ((y : ℝ) - ya) / (yb - ya) * (r - A.x) := by
    intro r
    field_simp
  rw [q, q, hk, hu]
  generalize c * (yc - ya) / (yb - ya) = c' at *
  have e1 := mul_le_mul_of_nonneg_left lB hb
  have e2 := mul_le_mul_of_nonneg_left lP hc'
  have e3 := mul_le_mul_of_nonneg_left rB hb
  have e4 := mul_le_mul_of_nonneg_left rP hc'
  constructor <;> linarith

/-- Lower part: a point of the triangle is between the two edges. -/
theorem Sorted.lower {A B C P : Vec3} (h : Sorted A B C P) {l r : ℝ} (lB : l ≤ B.x) (lP : l ≤ P.x) (rB : B.x ≤ r)
    (rP : P.x ≤ r) {u d : ℝ} {y : ℤ} (hin : InSnapped A B C u y d) (hy : trunc B.y ≤ y) :
    along l C.x (trunc C.y - trunc B.y) (y - trunc B.y) ≤ u ∧ u ≤ along r C.x (trunc C.y - trunc B.y) (y - trunc B.y) := by
  have hyc := (h.rows hin).2
  obtain ⟨a, b, c, ha, hb, hc, w1, w2, w3, -⟩ := hin
  have hM : (0 : ℝ) < trunc C.y - trunc A.y := by
    have : (trunc A.y : ℝ) < trunc C.y := by exact_mod_cast h.ac
    linarith
  have hp := h.px
  rcases h.bc.eq_or_lt with e | e
  · have hy' : y = trunc C.y := by omega
    unfold along
    rw [hy', e]
    rw [hy'] at w3
    rw [e] at w3 hp
    have ha0 : a = 0 := by
      have : a * ((trunc C.y : ℝ) - trunc A.y) = 0 := by
        obtain rfl : c = 1 - a - b := by linarith
        linear_combination w3
      exact (mul_eq_zero.1 this).resolve_right hM.ne'
    have hPC : P.x = C.x := by
      have : (P.x - C.x) * ((trunc C.y : ℝ) - trunc A.y) = 0 := by linear_combination hp
      have := (mul_eq_zero.1 this).resolve_right hM.ne'
      linarith
    subst ha0
    simp only [sub_self, Int.cast_zero, zero_mul, add_zero]
    rw [w2, ← hPC]
    have e1 := mul_le_mul_of_nonneg_left lB hb
    have e2 := mul_le_mul_of_nonneg_left lP hc
    have e3 := mul_le_mul_of_nonneg_left rB hb
    have e4 := mul_le_mul_of_nonneg_left rP hc
    have : c = 1 - b := by linarith
    subst this
    constructor <;> linarith
  · have hm' : (0 : ℝ) < trunc C.y - trunc B.y := by
      have : (trunc B.y : ℝ) < trunc C.y := by exact_mod_cast e
      linarith
    unfold along
    push_cast
    generalize (trunc A.y : ℝ) = ya at *
    generalize (trunc B.y : ℝ) = yb at *
    generalize (trunc C.y : ℝ) = yc at *
    have ha' : 0 ≤ a * (yc - ya) / (yc - yb) := div_nonneg (mul_nonneg ha hM.le) hm'.le
    obtain rfl : c = 1 - a - b := by linarith
    have hk : ((y : ℝ) - yb) / (yc - yb) = 1 - (b + a * (yc - ya) / (yc - yb)) := by
      rw [w3]
      field_simp
      ring
    have hu : u = C.x + b * (B.x - C.x) + a * (yc - ya) / (yc - yb) * (P.x - C.x) := by
      rw [w2]
      field_simp
      linear_combination (-a) * hp
    have q : ∀ r : ℝ, r + ((y : ℝ) - yb) * ((C.x - r) / (yc - yb)) = r + ((y : ℝ) - yb) / (yc - yb) * (C.x - r) := by
      intro r
      field_simp
    rw [q, q, hk, hu]
    generalize a * (yc - ya) / (yc - yb) = a' at *
    have e1 := mul_le_mul_of_nonneg_left lB hb
    have e2 := mul_le_mul_of_nonneg_left lP ha'
    have e3 := mul_le_mul_of_nonneg_left rB hb
    have e4 := mul_le_mul_of_nonneg_left rP ha'
    constructor <;> linarith

/-- The pixels of a list are exactly those of the triangle in the image. -/
def Covers (width height : ℕ) (p1 p2 p3 : Vec3) (tri : ℕ) (cs : List PixelCall) : Prop :=
  (∀ c ∈ cs, Drawn width height p1 p2 p3 tri c) ∧
    ∀ (x y : ℤ) (u d : ℝ), InImage width height x y → trunc u = x → InSnapped p1 p2 p3 u y d → ∃ c ∈ cs, c.x = x ∧ c.y = y

theorem Covers.swap12 {width height : ℕ} {p1 p2 p3 : Vec3} {tri : ℕ} {cs : List PixelCall}
    (h : Covers width height p1 p2 p3 tri cs) : Covers width height p2 p1 p3 tri cs :=
  ⟨fun c hc => (h.1 c hc).swap12, fun x y u d h1 h2 h3 => h.2 x y u d h1 h2 (inSnapped_swap12 h3)⟩

theorem Covers.swap23 {width height : ℕ} {p1 p2 p3 : Vec3} {tri : ℕ} {cs : List PixelCall}
    (h : Covers width height p1 p2 p3 tri cs) : Covers width height p1 p3 p2 tri cs :=
  ⟨fun c hc => (h.1 c hc).swap23, fun x y u d h1 h2 h3 => h.2 x y u d h1 h2 (inSnapped_swap23 h3)⟩

theorem small_row {p : Vec3} (h : Small p) : -2 ^ 30 ≤ trunc p.y ∧ trunc p.y < 2 ^ 30 := by
  have h1 := abs_lt.1 h.2
  have h2 := trunc_mono h1.1.le
  rw [show (-2 ^ 30 : ℝ) = ((-2 ^ 30 : ℤ) : ℝ) by norm_num, trunc_int] at h2
  refine ⟨h2, ?_⟩
  rcases le_or_gt 0 p.y with h0 | h0
  · rw [trunc_eq_floor h0]
    exact Int.floor_lt.2 (by push_cast; linarith [h1.2])
  · have h3 := trunc_mono h0.le
    rw [show (0 : ℝ) = ((0 : ℤ) : ℝ) by norm_num, trunc_int] at h3
    omega

theorem sorted_ok (width height : ℕ) {A B C P a b : Vec3} (tri : ℕ) (h : Sorted A B C P) (sA : Small A) (sB : Small B)
    (sC : Small C) (hab : a = P ∧ b = B ∨ a = B ∧ b = P) (hle : a.x ≤ b.x) :
    ∃ cs1 cs2, part width height (trunc A.y) (trunc B.y) (edge A a (trunc B.y - trunc A.y))
        (edge A b (trunc B.y - trunc A.y)) tri = .ok cs1 ∧
      part width height (trunc B.y) (trunc C.y) (edge a C (trunc C.y - trunc B.y)) (edge b C (trunc C.y - trunc B.y)) tri =
        .ok cs2 ∧ Covers width height A B C tri (cs1 ++ cs2) := by
  have ia : InSnapped A B C a.x (trunc B.y) a.z := by
    rcases hab with ⟨rfl, -⟩ | ⟨rfl, -⟩
    · exact h.prime
    · exact inSnapped_second _ _ _
  have ib : InSnapped A B C b.x (trunc B.y) b.z := by
    rcases hab with ⟨-, rfl⟩ | ⟨-, rfl⟩
    · exact inSnapped_second _ _ _
    · exact h.prime
  have lB : a.x ≤ B.x := by rcases hab with ⟨rfl, rfl⟩ | ⟨rfl, rfl⟩ <;> first | exact hle | exact le_rfl
  have lP : a.x ≤ P.x := by rcases hab with ⟨rfl, rfl⟩ | ⟨rfl, rfl⟩ <;> first | exact hle | exact le_rfl
  have rB : B.x ≤ b.x := by rcases hab with ⟨rfl, rfl⟩ | ⟨rfl, rfl⟩ <;> first | exact hle | exact le_rfl
  have rP : P.x ≤ b.x := by rcases hab with ⟨rfl, rfl⟩ | ⟨rfl, rfl⟩ <;> first | exact hle | exact le_rfl
  have i1 := inSnapped_first A B C
  have i3 := inSnapped_third A B C
  have m1 := h.ab
  have m2 := h.bc
  have r1 := small_row sA
  have r2 := small_row sB
  obtain ⟨cs1, hc1, p1, q1⟩ := part_ok width height h.ab (by omega) tri
    (follows_edge A a (m := trunc B.y - trunc A.y) (by omega)) (follows_edge A b (m := trunc B.y - trunc A.y) (by omega))
    (fun y g0 g1 => ⟨along_le (by omega) (by omega) hle, ((i1.along ia g0 g1).bound sA sB sC).1,
      ((i1.along ib g0 g1).bound sA sB sC).2⟩)
  obtain ⟨cs2, hc2, p2, q2⟩ := part_ok width height h.bc (by omega) tri
    (follows_edge a C (m := trunc C.y - trunc B.y) (by omega)) (follows_edge b C (m := trunc C.y - trunc B.y) (by omega))
    (fun y g0 g1 => ⟨along_start_le (by omega) (by omega) hle, ((ia.along i3 g0 g1).bound sA sB sC).1,
      ((ib.along i3 g0 g1).bound sA sB sC).2⟩)
  refine ⟨cs1, cs2, hc1, hc2, fun c hc => ?_, fun x y u d hi hu hin => ?_⟩
  · rcases List.mem_append.1 hc with hc | hc
    · obtain ⟨g0, g1, g2, g3, g4⟩ := p1 c hc
      refine drawn_of_row (i1.along ia g0 g1) (i1.along ib g0 g1) (along_le (by omega) (by omega) hle) ?_ g2 g3 g4
      rcases h.ab.eq_or_lt with e | e
      · left
        rw [← e]
        simp [along]
      · right
        exact fun u d hin => (h.upper lB lP rB rP hin e).2
    · obtain ⟨g0, g1, g2, g3, g4⟩ := p2 c hc
      exact drawn_of_row (ia.along i3 g0 g1) (ib.along i3 g0 g1) (along_start_le (by omega) (by omega) hle)
        (.inr fun u d hin => (h.lower lB lP rB rP hin g0).2) g2 g3 g4
  · obtain ⟨w0, w1, w2, w3⟩ := hi
    obtain ⟨y0, y1⟩ := h.rows hin
    rcases lt_or_ge y (trunc B.y) with e | e
    · obtain ⟨l, r⟩ := h.upper lB lP rB rP hin (by omega)
      have l' := trunc_mono l
      have r' := trunc_mono r
      obtain ⟨c, hc, hx⟩ := q1 y y0 e.le w2 w3 x (by omega) (by omega)
      exact ⟨c, List.mem_append_left _ hc, hx⟩
    · obtain ⟨l, r⟩ := h.lower lB lP rB rP hin e
      have l' := trunc_mono l
      have r' := trunc_mono r
      obtain ⟨c, hc, hx⟩ := q2 y e y1 w2 w3 x (by omega) (by omega)
      exact ⟨c, List.mem_append_right _ hc, hx⟩

/-! ## Sorting -/

theorem sort_cases (f : Vec3 → ℝ) (p1 p2 p3 : Vec3) :
    (f (sort f p1 p2 p3).1 ≤ f (sort f p1 p2 p3).2.1 ∧ f (sort f p1 p2 p3).2.1 ≤ f (sort f p1 p2 p3).2.2) ∧
      (sort f p1 p2 p3 = (p1, p2, p3) ∨ sort f p1 p2 p3 = (p1, p3, p2) ∨ sort f p1 p2 p3 = (p2, p1, p3) ∨
        sort f p1 p2 p3 = (p2, p3, p1) ∨ sort f p1 p2 p3 = (p3, p1, p2) ∨ sort f p1 p2 p3 = (p3, p2, p1)) := by
  unfold sort
  by_cases h1 : f p1 > f p3
  · by_cases h2 : f p3 > f p2
    · have h3 : ¬ f p3 > f p1 := by linarith
      simp only [h1, h2, h3, if_true, if_false]
      exact ⟨⟨h2.le, h1.le⟩, by simp⟩
    · by_cases h3 : f p2 > f p1
      · simp only [h1, h2, h3, if_true, if_false]
        exact ⟨⟨h1.le, h3.le⟩, by simp⟩
      · simp only [h1, h2, h3, if_true, if_false]
        exact ⟨⟨not_lt.1 h2, not_lt.1 h3⟩, by simp⟩
  · by_cases h2 : f p1 > f p2
    · have h3 : ¬ f p1 > f p3 := h1
      simp only [h1, h2, if_true, if_false]
      exact ⟨⟨h2.le, not_lt.1 h3⟩, by simp⟩
    · by_cases h3 : f p2 > f p3
      · simp only [h1, h2, h3, if_true, if_false]
        exact ⟨⟨not_lt.1 h1, h3.le⟩, by simp⟩
      · simp only [h1, h2, h3, if_false]
        exact ⟨⟨not_lt.1 h2, not_lt.1 h3⟩, by simp⟩

/-- A property that does not depend on the order of the corners. -/
theorem sort_iff {Q : Vec3 → Vec3 → Vec3 → Prop} (h12 : ∀ a b c, Q a b c → Q b a c) (h23 : ∀ a b c, Q a b c → Q a c b)
    (f : Vec3 → ℝ) (p1 p2 p3 : Vec3) :
    Q (sort f p1 p2 p3).1 (sort f p1 p2 p3).2.1 (sort f p1 p2 p3).2.2 ↔ Q p1 p2 p3 := by
  have k12 : ∀ a b c, Q a b c ↔ Q b a c := fun a b c => ⟨h12 a b c, h12 b a c⟩
  have k23 : ∀ a b c, Q a b c ↔ Q a c b := fun a b c => ⟨h23 a b c, h23 a c b⟩
  rcases (sort_cases f p1 p2 p3).2 with h | h | h | h | h | h <;> rw [h]
  · exact k23 _ _ _
  · exact k12 _ _ _
  · exact (k23 _ _ _).trans (k12 _ _ _)
  · exact (k12 _ _ _).trans (k23 _ _ _)
  · exact (k12 _ _ _).trans ((k23 _ _ _).trans (k12 _ _ _))

/-! ## The triangle -/

/-- The triangle passes the test against the window. -/
def InWindow (width height : ℕ) (p1 p2 p3 : Vec3) : Prop :=
  min (trunc p1.x) (min (trunc p2.x) (trunc p3.x)) < width ∧ max (trunc p1.x) (max (trunc p2.x) (trunc p3.x)) > 0 ∧
    min (trunc p1.y) (min (trunc p2.y) (trunc p3.y)) < height ∧ max (trunc p1.y) (max (trunc p2.y) (trunc p3.y)) > 0

theorem small_cast {p : Vec3} (h : Small p) : castInt p.x = .ok (trunc p.x) ∧ castInt p.y = .ok (trunc p.y) := by
  have h1 := abs_lt.1 h.1
  have h2 := abs_lt.1 h.2
  exact ⟨castInt_real (by linarith) (by linarith), castInt_real (by linarith) (by linarith)⟩

theorem flat_ok (width height : ℕ) {A B C : Vec3} (tri : ℕ) (h1 : trunc A.y = trunc B.y) (h2 : trunc B.y = trunc C.y)
    (sA : Small A) (sB : Small B) (sC : Small C) (x1 : A.x ≤ B.x) (x2 : B.x ≤ C.x) :
    ∃ cs, part width height (trunc A.y) (trunc B.y) (still A) (still C) tri = .ok cs ∧ Covers width height A B C tri cs := by
  have i1 := inSnapped_first A B C
  have i3 := inSnapped_third A B C
  rw [← h2] at i3
  rw [h1] at i1
  have hmax : ∀ (u d y : ℝ), InSnapped A B C u y d → y = trunc B.y ∧ A.x ≤ u ∧ u ≤ C.x := by
    rintro u d y ⟨a, b, c, ha, hb, hc, w1, w2, w3, -⟩
    obtain rfl : a = 1 - b - c := by linarith
    have e1 := mul_le_mul_of_nonneg_left x1 hb
    have e2 := mul_le_mul_of_nonneg_left (x1.trans x2) hc
    have e3 := mul_le_mul_of_nonneg_left (x1.trans x2) ha
    have e4 := mul_le_mul_of_nonneg_left x2 hb
    refine ⟨?_, by linarith, by linarith⟩
    rw [w3, h1, ← h2]
    ring
  have r1 := small_row sB
  have al : ∀ a b : ℝ, ∀ k : ℤ, k = 0 → along a b (trunc B.y - trunc B.y) k = a := by
    rintro a b k rfl
    simp [along]
  obtain ⟨cs, hc, p, q⟩ := part_ok (y0 := trunc B.y) (y1 := trunc B.y) (s := still A) (e := still C) (a := A.x) (a' := A.x)
    (b := C.x) (b' := C.x) (c := A.z) (c' := A.z) (d := C.z) (d' := C.z) width height le_rfl (by omega) tri
    (.inl ⟨by omega, rfl, rfl⟩) (.inl ⟨by omega, rfl, rfl⟩) (fun y g0 g1 => by
      rw [al _ _ _ (by omega), al _ _ _ (by omega)]
      exact ⟨x1.trans x2, (i1.bound sA sB sC).1, (i3.bound sA sB sC).2⟩)
  rw [h1]
  refine ⟨cs, hc, fun c hc => ?_, fun x y u d hi hu hin => ?_⟩
  · obtain ⟨g0, g1, g2, g3, g4⟩ := p c hc
    have hy : c.y = trunc B.y := by omega
    rw [al _ _ _ (by omega), al _ _ _ (by omega), al _ _ _ (by omega), al _ _ _ (by omega)] at g4
    exact drawn_of_row (by rw [hy]; exact i1) (by rw [hy]; exact i3) (x1.trans x2)
      (.inr fun u d hin => (hmax u d _ hin).2.2) g2 g3 g4
  · obtain ⟨w0, w1, w2, w3⟩ := hi
    obtain ⟨hy, l, r⟩ := hmax u d _ hin
    have hy : y = trunc B.y := by exact_mod_cast hy
    have l' := trunc_mono l
    have r' := trunc_mono r
    exact q y (by omega) (by omega) w2 w3 x (by rw [al _ _ _ (by omega)]; omega) (by rw [al _ _ _ (by omega)]; omega)

theorem prime_coord (a b m : ℝ) (A C : Vec3) :
    ((a * A + b * C : Vec3) / m).x = (a * A.x + b * C.x) / m ∧ ((a * A + b * C : Vec3) / m).z = (a * A.z + b * C.z) / m := by
  constructor
  · show (A.x * a + C.x * b) / m = _
    ring
  · show (A.z * a + C.z * b) / m = _
    ring

theorem triangle2D_ok (width height : ℕ) (culling : Bool) {p1 p2 p3 : Vec3} (tri : ℕ) (s1 : Small p1) (s2 : Small p2)
    (s3 : Small p3) :
    ∃ cs, triangle2D width height culling p1 p2 p3 tri = .ok cs ∧
      ((culling = true ∧ culls p1 p2 p3 ∨ ¬ InWindow width height p1 p2 p3) → cs = []) ∧
      (¬ (culling = true ∧ culls p1 p2 p3) → InWindow width height p1 p2 p3 → Covers width height p1 p2 p3 tri cs) := by
  unfold triangle2D
  by_cases hc : culling = true ∧ culls p1 p2 p3
  · rw [if_pos hc]
    exact ⟨[], rfl, fun _ => rfl, fun h => absurd hc h⟩
  rw [if_neg hc]
  simp only [(small_cast s1).1, (small_cast s1).2, (small_cast s2).1, (small_cast s2).2, (small_cast s3).1,
    (small_cast s3).2, bind, Except.bind, pure, Except.pure]
  by_cases hw : InWindow width height p1 p2 p3
  swap
  · have hw' := hw
    unfold InWindow at hw'
    rw [if_neg hw']
    exact ⟨[], rfl, fun _ => rfl, fun _ h => absurd h hw⟩
  have hw' := hw
  unfold InWindow at hw'
  rw [if_pos hw']
  have key : ∀ e : Exec (List PixelCall), (∃ cs, e = .ok cs ∧ Covers width height p1 p2 p3 tri cs) →
      ∃ cs, e = .ok cs ∧ ((culling = true ∧ culls p1 p2 p3 ∨ ¬ InWindow width height p1 p2 p3) → cs = []) ∧
      (¬ (culling = true ∧ culls p1 p2 p3) → InWindow width height p1 p2 p3 → Covers width height p1 p2 p3 tri cs) := by
    rintro e ⟨cs, h1, h2⟩
    exact ⟨cs, h1, fun h => absurd hw (h.resolve_left hc), fun _ _ => h2⟩
  apply key
  have hsm : ∀ f : Vec3 → ℝ, Small (sort f p1 p2 p3).1 ∧ Small (sort f p1 p2 p3).2.1 ∧ Small (sort f p1 p2 p3).2.2 := by
    intro f
    exact (sort_iff (Q := fun a b c => Small a ∧ Small b ∧ Small c) (fun a b c h => ⟨h.2.1, h.1, h.2.2⟩)
      (fun a b c h => ⟨h.1, h.2.2, h.2.1⟩) f p1 p2 p3).2 ⟨s1, s2, s3⟩
  split_ifs with hflat
  · have hall := (sort_iff (Q := fun a b c => trunc a.y = trunc b.y ∧ trunc b.y = trunc c.y)
      (fun a b c h => ⟨h.1.symm, h.1.trans h.2⟩) (fun a b c h => ⟨h.1.trans h.2, h.2.symm⟩) Vec3.x p1 p2 p3).2
      ⟨by omega, by omega⟩
    obtain ⟨⟨o1, o2⟩, -⟩ := sort_cases Vec3.x p1 p2 p3
    have hback := fun cs => sort_iff (Q := fun a b c => Covers width height a b c tri cs) (fun a b c h => h.swap12)
      (fun a b c h => h.swap23) Vec3.x p1 p2 p3
    obtain ⟨k1, k2, k3⟩ := hsm Vec3.x
    generalize sort Vec3.x p1 p2 p3 = r at *
    obtain ⟨A, B, C⟩ := r
    obtain ⟨cs, e1, e2⟩ := flat_ok width height tri hall.1 hall.2 k1 k2 k3 o1 o2
    simp only [(small_cast k1).2, (small_cast k2).2]
    exact ⟨cs, e1, (hback cs).1 e2⟩
  · have hall := (sort_iff (Q := fun a b c => ¬ (trunc a.y = trunc b.y ∧ trunc b.y = trunc c.y))
      (fun a b c h g => h ⟨g.1.symm, g.1.trans g.2⟩) (fun a b c h g => h ⟨g.1.trans g.2, g.2.symm⟩) Vec3.y p1 p2 p3).2
      (fun g => hflat (by omega))
    obtain ⟨⟨o1, o2⟩, -⟩ := sort_cases Vec3.y p1 p2 p3
    have hback := fun cs => sort_iff (Q := fun a b c => Covers width height a b c tri cs) (fun a b c h => h.swap12)
      (fun a b c h => h.swap23) Vec3.y p1 p2 p3
    obtain ⟨k1, k2, k3⟩ := hsm Vec3.y
    generalize sort Vec3.y p1 p2 p3 = r at *
    obtain ⟨A, B, C⟩ := r
    simp only at hall o1 o2 k1 k2 k3 hback
    have t1 := trunc_mono o1
    have t2 := trunc_mono o2
    have r1 := small_row k1
    have r2 := small_row k2
    have r3 := small_row k3
    have i1 : intOp (trunc B.y - trunc A.y) = .ok (trunc B.y - trunc A.y) := by rw [intOp, if_pos (by omega)]
    have i2 : intOp (trunc C.y - trunc B.y) = .ok (trunc C.y - trunc B.y) := by rw [intOp, if_pos (by omega)]
    have i3 : intOp (trunc C.y - trunc A.y) = .ok (trunc C.y - trunc A.y) := by rw [intOp, if_pos (by omega)]
    simp only [(small_cast k1).2, (small_cast k2).2, (small_cast k3).2, i1, i2, i3]
    have hac : trunc A.y < trunc C.y := by omega
    have hM : ((trunc C.y : ℝ) - trunc A.y) ≠ 0 := by
      have : (trunc A.y : ℝ) < trunc C.y := by exact_mod_cast hac
      linarith
    generalize hP : ((((trunc C.y - trunc B.y : ℤ) : ℝ) * A + ((trunc B.y - trunc A.y : ℤ) : ℝ) * C) /
      ((trunc C.y - trunc A.y : ℤ) : ℝ) : Vec3) = P
    have hs : Sorted A B C P := by
      refine ⟨t1, t2, hac, ?_, ?_⟩
      · rw [← hP, (prime_coord _ _ _ A C).1]
        push_cast
        field_simp
      · rw [← hP, (prime_coord _ _ _ A C).2]
        push_cast
        field_simp
    by_cases hx : P.x > B.x
    · obtain ⟨c1, c2, e1, e2, e3⟩ := sorted_ok width height tri hs k1 k2 k3 (.inr ⟨rfl, rfl⟩) hx.le
      simp only [hx, if_true, e1, e2]
      exact ⟨_, rfl, (hback _).1 e3⟩
    · obtain ⟨c1, c2, e1, e2, e3⟩ := sorted_ok width height tri hs k1 k2 k3 (.inl ⟨rfl, rfl⟩) (not_lt.1 hx)
      simp only [hx, if_false, e1, e2]
      exact ⟨_, rfl, (hback _).1 e3⟩

end Geo
