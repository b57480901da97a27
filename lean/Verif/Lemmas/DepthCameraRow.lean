import Verif.Spec.DepthCamera
import Mathlib.Algebra.Order.Floor.Ring
import Mathlib.Logic.Function.Iterate

/-!
# Rows and parts of the rasteriser
-/

namespace Geo

open Spec Raster

theorem trunc_eq_floor {x : ℝ} (h : 0 ≤ x) : trunc x = ⌊x⌋ := by rw [trunc, if_pos h]

theorem trunc_eq_ceil {x : ℝ} (h : x < 0) : trunc x = ⌈x⌉ := by rw [trunc, if_neg (not_le.2 h)]

theorem trunc_mono {x y : ℝ} (h : x ≤ y) : trunc x ≤ trunc y := by
  rcases le_or_gt 0 x with hx | hx
  · rw [trunc_eq_floor hx, trunc_eq_floor (hx.trans h)]
    exact Int.floor_le_floor h
  · rcases le_or_gt 0 y with hy | hy
    · rw [trunc_eq_ceil hx, trunc_eq_floor hy]
      have h1 : ⌈x⌉ ≤ 0 := Int.ceil_le.2 (by exact_mod_cast hx.le)
      exact h1.trans (Int.floor_nonneg.2 hy)
    · rw [trunc_eq_ceil hx, trunc_eq_ceil hy]
      exact Int.ceil_le_ceil h

theorem trunc_int (n : ℤ) : trunc n = n := by
  unfold trunc
  split_ifs <;> simp

theorem castInt_real {x : ℝ} (h1 : -2 ^ 31 < x) (h2 : x < 2 ^ 31) : castInt x = .ok (trunc x) := by
  unfold castInt
  rw [if_pos]
  rcases le_or_gt 0 x with hx | hx
  · rw [trunc_eq_floor hx]
    refine ⟨?_, Int.floor_lt.2 (by push_cast; linarith)⟩
    have := Int.floor_nonneg.2 hx
    omega
  · rw [trunc_eq_ceil hx]
    have h3 : ⌈x⌉ ≤ 0 := Int.ceil_le.2 (by exact_mod_cast hx.le)
    refine ⟨?_, by omega⟩
    have : ((-2 ^ 31 : ℤ) : ℝ) < ⌈x⌉ := lt_of_lt_of_le (by push_cast; linarith) (Int.le_ceil x)
    have := Int.cast_lt.1 this
    omega

/-! ## Arithmetic on finite values -/

namespace Fl

@[simp] theorem add_fin (a b : ℝ) : (fin a).add (fin b) = fin (a + b) := rfl
@[simp] theorem neg_fin (a : ℝ) : (fin a).neg = fin (-a) := rfl
@[simp] theorem sub_fin (a b : ℝ) : (fin a).sub (fin b) = fin (a - b) := by simp [sub, sub_eq_add_neg]
@[simp] theorem mul_fin (a b : ℝ) : (fin a).mul (fin b) = fin (a * b) := rfl
theorem div_fin (a : ℝ) {b : ℝ} (h : b ≠ 0) : (fin a).div (fin b) = fin (a / b) := by simp [div, h]
@[simp] theorem lt_fin (a b : ℝ) : (fin a).lt (fin b) = true ↔ a < b := by simp [lt]
@[simp] theorem isZero_fin (a : ℝ) : (fin a).isZero = true ↔ a = 0 := by simp [isZero]

theorem nan_add (a : Fl) : nan.add a = nan := by cases a <;> rfl
theorem add_nan (a : Fl) : a.add nan = nan := by cases a <;> rfl

end Fl

/-! ## One row -/

/-- What is known of a pixel of a row from `xs` to `xe` with inverse depths `ds` to `de`: the value at some position `u` of the
pixel, or NaN or 0 for a single point left of the image. -/
def RowPixel (width : ℕ) (y : ℤ) (xs xe ds de : ℝ) (tri : ℕ) (c : PixelCall) : Prop :=
  c.y = y ∧ c.tri = tri ∧ max 0 (trunc xs) ≤ c.x ∧ c.x ≤ min ((width : ℤ) - 1) (trunc xe) ∧
    ((xs = xe ∧ xs < 0 ∧ (ds = de ∧ c.depth = .nan ∨ ds ≠ de ∧ c.depth = .fin 0)) ∨
      ((0 ≤ xs ∨ xs ≠ xe) ∧ ∃ t u : ℝ, c.depth = (Fl.fin 1).div (.fin (ds + t * (de - ds))) ∧ u = xs + t * (xe - xs) ∧
        (c.x : ℝ) ≤ u ∧ u < c.x + 1 ∧ 0 ≤ t ∧ (u ≤ xe → t ≤ 1)))

theorem mem_pixels {y : ℤ} {dd : Fl} {tri : ℕ} {c : PixelCall} : ∀ (n : ℕ) (x : ℤ) (d : Fl),
    c ∈ pixels y dd tri n x d ↔ ∃ k : ℕ, k < n ∧ c = ⟨x + k, y, (Fl.fin 1).div ((fun e => e.add dd)^[k] d), tri⟩
  | 0, x, d => by simp [pixels]
  | n + 1, x, d => by
    rw [pixels, List.mem_cons, mem_pixels n]
    constructor
    · rintro (rfl | ⟨k, hk, rfl⟩)
      · exact ⟨0, by omega, by simp⟩
      · refine ⟨k + 1, by omega, ?_⟩
        rw [Function.iterate_succ_apply]
        push_cast
        congr 1
        omega
    · rintro ⟨k, hk, rfl⟩
      cases k with
      | zero => left; simp
      | succ k =>
        right
        refine ⟨k, by omega, ?_⟩
        rw [Function.iterate_succ_apply]
        push_cast
        congr 1
        omega

theorem iter_fin (dd : ℝ) : ∀ (k : ℕ) (d : ℝ), (fun e : Fl => e.add (.fin dd))^[k] (.fin d) = .fin (d + k * dd)
  | 0, d => by simp
  | k + 1, d => by
    rw [Function.iterate_succ_apply, Fl.add_fin, iter_fin dd k]
    push_cast
    congr 1
    ring

theorem row_ok (width : ℕ) (y : ℤ) {xs xe : ℝ} (ds de : ℝ) (tri : ℕ) (hle : xs ≤ xe) (h1 : -2 ^ 31 < xs)
    (h2 : xe < 2 ^ 31) :
    ∃ cs, row width y (.fin xs) (.fin xe) (.fin ds) (.fin de) tri = .ok cs ∧
      (∀ c ∈ cs, RowPixel width y xs xe ds de tri c) ∧
      ∀ x, max 0 (trunc xs) ≤ x → x ≤ min ((width : ℤ) - 1) (trunc xe) → ∃ c ∈ cs, c.x = x := by
  have ce : castInt xe = .ok (trunc xe) := castInt_real (by linarith) h2
  have cs' : castInt xs = .ok (trunc xs) := castInt_real h1 (by linarith)
  have ht := trunc_mono hle
  unfold row
  rcases lt_or_ge xs 0 with hx | hx
  · have hm : max 0 (trunc xs) = 0 := by
      have : trunc xs ≤ 0 := by
        rw [trunc_eq_ceil hx]
        exact Int.ceil_le.2 (by exact_mod_cast hx.le)
      omega
    rw [if_pos (by simpa using hx)]
    simp only [bind, Except.bind, pure, Except.pure, Fl.toInt, ce, hm]
    refine ⟨_, rfl, fun c hc => ?_, fun x x0 x1 => ?_⟩
    · obtain ⟨k, hk, rfl⟩ := (mem_pixels _ _ _).1 hc
      have hb : (0 : ℤ) + k ≤ min ((width : ℤ) - 1) (trunc xe) := by omega
      refine ⟨rfl, rfl, by simp only [hm]; omega, by simp only; omega, ?_⟩
      rcases hle.eq_or_lt with he | hlt
      · left
        refine ⟨he, hx, ?_⟩
        show _ ∨ _
        subst he
        have : k = 0 := by
          rw [trunc_eq_ceil hx] at hb
          have : ⌈xs⌉ ≤ 0 := Int.ceil_le.2 (by exact_mod_cast hx.le)
          omega
        subst this
        simp only [Fl.sub_fin, sub_self, Fl.neg_fin, Function.iterate_zero, id]
        have : ∀ a, (Fl.fin a).div (.fin 0) = Fl.inf a := fun a => by simp [Fl.div]
        rw [this]
        rcases lt_trichotomy 0 (de - ds) with g | g | g
        · right
          have hn : ¬ -xs < 0 := by linarith
          refine ⟨by linarith, ?_⟩
          simp [Fl.inf, g, Fl.mul, Fl.add, Fl.div, hx]
        · left
          refine ⟨by linarith, ?_⟩
          rw [← g]
          simp [Fl.inf, Fl.mul, Fl.add, Fl.div]
        · right
          have hn : ¬ 0 < de - ds := by linarith
          refine ⟨by linarith, ?_⟩
          have h4 : ¬ 0 < xs := by linarith
          simp only [Fl.inf, hn, g, if_false, if_true, Fl.mul, neg_neg, h4, hx, Fl.add, Fl.div]
      · right
        have hne : xe - xs ≠ 0 := by linarith
        refine ⟨.inr hlt.ne, (k - xs) / (xe - xs), k, ?_, ?_, ?_, ?_, ?_, ?_⟩
        · rw [Fl.sub_fin, Fl.sub_fin, Fl.div_fin _ hne, Fl.neg_fin, Fl.mul_fin, Fl.add_fin, iter_fin]
          field_simp
          ring_nf
        · field_simp
          ring
        · push_cast; simp
        · push_cast; simp
        · exact div_nonneg (by have : (0 : ℝ) ≤ k := Nat.cast_nonneg k; linarith) (by linarith)
        · intro hu
          rw [div_le_one (by linarith)]
          linarith
    · exact ⟨⟨x, y, _, tri⟩, (mem_pixels _ _ _).2 ⟨x.toNat, by omega, by congr 1; omega⟩, rfl⟩
  · have hm : max 0 (trunc xs) = trunc xs := by
      have : 0 ≤ trunc xs := by
        rw [trunc_eq_floor hx]
        exact Int.floor_nonneg.2 hx
      omega
    rw [if_neg (by simpa using hx)]
    simp only [bind, Except.bind, pure, Except.pure, Fl.toInt, ce, cs', hm]
    have f1 := Int.floor_le xs
    have f2 := Int.lt_floor_add_one xs
    refine ⟨_, rfl, fun c hc => ?_, fun x x0 x1 => ?_⟩
    · obtain ⟨k, hk, rfl⟩ := (mem_pixels _ _ _).1 hc
      have hb : trunc xs + k ≤ min ((width : ℤ) - 1) (trunc xe) := by omega
      refine ⟨rfl, rfl, by simp only [hm]; omega, by simp only; omega, .inr ⟨.inl hx, ?_⟩⟩
      rcases hle.eq_or_lt with he | hlt
      · subst he
        have : k = 0 := by omega
        subst this
        refine ⟨0, xs, ?_, by ring, ?_, ?_, le_rfl, fun _ => zero_le_one⟩
        · simp
        · simp only [trunc_eq_floor hx]; push_cast; linarith
        · simp only [trunc_eq_floor hx]; push_cast; linarith
      · have hne : xe - xs ≠ 0 := by linarith
        refine ⟨k / (xe - xs), xs + k, ?_, ?_, ?_, ?_, ?_, ?_⟩
        · rw [Fl.sub_fin, Fl.sub_fin, Fl.div_fin _ hne, iter_fin]
          field_simp
        · field_simp
        · simp only [trunc_eq_floor hx]; push_cast; linarith
        · simp only [trunc_eq_floor hx]; push_cast; linarith
        · exact div_nonneg (Nat.cast_nonneg k) (by linarith)
        · intro hu
          rw [div_le_one (by linarith)]
          linarith
    · exact ⟨⟨x, y, _, tri⟩, (mem_pixels _ _ _).2 ⟨(x - trunc xs).toNat, by omega, by congr 1; omega⟩, rfl⟩

/-! ## Several rows -/

theorem rows_ok (width : ℕ) (tri : ℕ) : ∀ (n : ℕ) (y : ℤ) (s e : Edge) (xs xe ds de : ℕ → ℝ),
    (∀ k < n, (Edge.next^[k] s).x = .fin (xs k) ∧ (Edge.next^[k] s).d = .fin (ds k) ∧
      (Edge.next^[k] e).x = .fin (xe k) ∧ (Edge.next^[k] e).d = .fin (de k)) →
    (∀ k < n, xs k ≤ xe k ∧ -2 ^ 31 < xs k ∧ xe k < 2 ^ 31) →
    ∃ cs, rows width tri n y s e = .ok cs ∧
      (∀ c ∈ cs, ∃ k < n, RowPixel width (y + k) (xs k) (xe k) (ds k) (de k) tri c) ∧
      ∀ k < n, ∀ x, max 0 (trunc (xs k)) ≤ x → x ≤ min ((width : ℤ) - 1) (trunc (xe k)) → ∃ c ∈ cs, c.x = x ∧ c.y = y + k
  | 0, y, s, e, xs, xe, ds, de, _, _ => ⟨[], rfl, by simp, by simp⟩
  | n + 1, y, s, e, xs, xe, ds, de, h, hb => by
    obtain ⟨g1, g2, g3, g4⟩ := h 0 (by omega)
    obtain ⟨b1, b2, b3⟩ := hb 0 (by omega)
    simp only [Function.iterate_zero, id] at g1 g2 g3 g4
    obtain ⟨cs, hcs, p1, p2⟩ := row_ok width y (ds 0) (de 0) tri b1 b2 b3
    obtain ⟨rs, hrs, q1, q2⟩ := rows_ok width tri n (y + 1) s.next e.next (fun k => xs (k + 1)) (fun k => xe (k + 1))
      (fun k => ds (k + 1)) (fun k => de (k + 1)) (fun k hk => by simpa using h (k + 1) (by omega))
      (fun k hk => hb (k + 1) (by omega))
    refine ⟨cs ++ rs, ?_, ?_, ?_⟩
    · rw [rows, g1, g2, g3, g4, hcs]
      simp only [bind, Except.bind, hrs, pure, Except.pure]
    · intro c hc
      rcases List.mem_append.1 hc with hc | hc
      · exact ⟨0, by omega, by simpa using p1 c hc⟩
      · obtain ⟨k, hk, hr⟩ := q1 c hc
        refine ⟨k + 1, by omega, ?_⟩
        have : y + 1 + (k : ℤ) = y + ((k + 1 : ℕ) : ℤ) := by push_cast; ring
        rw [← this]
        exact hr
    · intro k hk x x0 x1
      cases k with
      | zero =>
        obtain ⟨c, hc, hx⟩ := p2 x x0 x1
        exact ⟨c, List.mem_append_left _ hc, hx, by simpa using (p1 c hc).1⟩
      | succ k =>
        obtain ⟨c, hc, hx, hy⟩ := q2 k (by omega) x x0 x1
        exact ⟨c, List.mem_append_right _ hc, hx, by rw [hy]; push_cast; ring⟩

theorem next_iter (x dx d dd : ℝ) : ∀ k : ℕ,
    Edge.next^[k] ⟨.fin x, .fin dx, .fin d, .fin dd⟩ = ⟨.fin (x + k * dx), .fin dx, .fin (d + k * dd), .fin dd⟩
  | 0 => by simp
  | k + 1 => by
    rw [Function.iterate_succ_apply', next_iter x dx d dd k]
    simp only [Edge.next, Fl.add_fin]
    push_cast
    congr 2 <;> ring

/-- The value `k` steps along a line over `m` steps. -/
noncomputable def along (a b : ℝ) (m k : ℤ) : ℝ := a + k * ((b - a) / m)

/-- An edge whose values in row `y` (counted from its start) over `m` rows go from `(x, d)` to `(x', d')`. -/
def Follows (e : Edge) (m : ℤ) (x x' d d' : ℝ) : Prop :=
  (m = 0 ∧ e.x = .fin x ∧ e.d = .fin d) ∨
    (0 < m ∧ e = ⟨.fin x, .fin ((x' - x) / m), .fin d, .fin ((d' - d) / m)⟩)

theorem follows_edge (p q : Vec3) {m : ℤ} (hm : 0 ≤ m) : Follows (edge p q m) m p.x q.x p.z q.z := by
  rcases hm.eq_or_lt with h | h
  · exact .inl ⟨h.symm, rfl, rfl⟩
  · have : (m : ℝ) ≠ 0 := by exact_mod_cast h.ne'
    exact .inr ⟨h, by rw [edge, Fl.div_fin _ this, Fl.div_fin _ this]⟩

theorem Follows.at {e : Edge} {m : ℤ} {x x' d d' : ℝ} (h : Follows e m x x' d d') {k : ℕ} (hk : (k : ℤ) ≤ m) :
    (Edge.next^[k] e).x = .fin (along x x' m k) ∧ (Edge.next^[k] e).d = .fin (along d d' m k) := by
  rcases h with ⟨rfl, hx, hd⟩ | ⟨hm, rfl⟩
  · have : k = 0 := by omega
    subst this
    simp [along, hx, hd]
  · rw [next_iter]
    simp [along]

theorem Follows.jump_at {e : Edge} {m : ℤ} {x x' d d' : ℝ} (h : Follows e m x x' d d') {n : ℤ} (hn : 0 < n) {k : ℕ}
    (hk : n + (k : ℤ) ≤ m) :
    (Edge.next^[k] (e.jump n)).x = .fin (along x x' m (n + k)) ∧
      (Edge.next^[k] (e.jump n)).d = .fin (along d d' m (n + k)) := by
  rcases h with ⟨rfl, hx, hd⟩ | ⟨hm, rfl⟩
  · omega
  · simp only [Edge.jump, Fl.mul_fin, Fl.add_fin]
    rw [next_iter]
    simp only [along]
    push_cast
    constructor <;> congr 1 <;> ring

theorem part_ok (width height : ℕ) {y0 y1 : ℤ} (h01 : y0 ≤ y1) (hy0 : -2 ^ 31 < y0) {s e : Edge}
    {a a' b b' c c' d d' : ℝ} (tri : ℕ)
    (hs : Follows s (y1 - y0) a a' c c') (he : Follows e (y1 - y0) b b' d d')
    (hb : ∀ y, y0 ≤ y → y ≤ y1 → along a a' (y1 - y0) (y - y0) ≤ along b b' (y1 - y0) (y - y0) ∧
      -2 ^ 31 < along a a' (y1 - y0) (y - y0) ∧ along b b' (y1 - y0) (y - y0) < 2 ^ 31) :
    ∃ cs, part width height y0 y1 s e tri = .ok cs ∧
      (∀ p ∈ cs, y0 ≤ p.y ∧ p.y ≤ y1 ∧ 0 ≤ p.y ∧ p.y < height ∧
        RowPixel width p.y (along a a' (y1 - y0) (p.y - y0)) (along b b' (y1 - y0) (p.y - y0))
          (along c c' (y1 - y0) (p.y - y0)) (along d d' (y1 - y0) (p.y - y0)) tri p) ∧
      ∀ y, y0 ≤ y → y ≤ y1 → 0 ≤ y → y < height → ∀ x, max 0 (trunc (along a a' (y1 - y0) (y - y0))) ≤ x →
        x ≤ min ((width : ℤ) - 1) (trunc (along b b' (y1 - y0) (y - y0))) → ∃ p ∈ cs, p.x = x ∧ p.y = y := by
  unfold part
  rcases lt_or_ge y0 0 with h0 | h0
  · rw [if_pos h0]
    have : intOp (-y0) = .ok (-y0) := by
      unfold intOp
      rw [if_pos (by omega)]
    simp only [this, bind, Except.bind, pure, Except.pure]
    obtain ⟨cs, hcs, p1, p2⟩ := rows_ok width tri (min ((height : ℤ) - 1) y1 - 0 + 1).toNat 0 (s.jump (-y0)) (e.jump (-y0))
      (fun k => along a a' (y1 - y0) (-y0 + k)) (fun k => along b b' (y1 - y0) (-y0 + k))
      (fun k => along c c' (y1 - y0) (-y0 + k)) (fun k => along d d' (y1 - y0) (-y0 + k))
      (fun k hk => ⟨(hs.jump_at (by omega) (by omega)).1, (hs.jump_at (by omega) (by omega)).2,
        (he.jump_at (by omega) (by omega)).1, (he.jump_at (by omega) (by omega)).2⟩)
      (fun k hk => by
        have := hb k (by omega) (by omega)
        rwa [show (k : ℤ) - y0 = -y0 + k by ring] at this)
    refine ⟨cs, hcs, ?_, ?_⟩
    · intro p hp
      obtain ⟨k, hk, hr⟩ := p1 p hp
      have hy : p.y = k := by rw [hr.1]; ring
      rw [show p.y - y0 = -y0 + k by rw [hy]; ring]
      refine ⟨by omega, by omega, by omega, by omega, ?_⟩
      rw [hy]
      simpa using hr
    · intro y g1 g2 g3 g4 x x0 x1
      have hk : ((y.toNat : ℕ) : ℤ) = y := Int.toNat_of_nonneg g3
      obtain ⟨p, hp, e1, e2⟩ := p2 y.toNat (by omega) x (by rw [hk, show -y0 + y = y - y0 by ring]; exact x0)
        (by rw [hk, show -y0 + y = y - y0 by ring]; exact x1)
      exact ⟨p, hp, e1, by rw [e2, hk]; ring⟩
  · rw [if_neg (by omega)]
    simp only [bind, Except.bind, pure, Except.pure]
    obtain ⟨cs, hcs, p1, p2⟩ := rows_ok width tri (min ((height : ℤ) - 1) y1 - y0 + 1).toNat y0 s e
      (fun k => along a a' (y1 - y0) k) (fun k => along b b' (y1 - y0) k)
      (fun k => along c c' (y1 - y0) k) (fun k => along d d' (y1 - y0) k)
      (fun k hk => ⟨(hs.at (by omega)).1, (hs.at (by omega)).2, (he.at (by omega)).1, (he.at (by omega)).2⟩)
      (fun k hk => by
        have := hb (y0 + k) (by omega) (by omega)
        rwa [show y0 + (k : ℤ) - y0 = k by ring] at this)
    refine ⟨cs, hcs, ?_, ?_⟩
    · intro p hp
      obtain ⟨k, hk, hr⟩ := p1 p hp
      have hy : p.y = y0 + k := hr.1
      rw [show p.y - y0 = k by rw [hy]; ring]
      refine ⟨by omega, by omega, by omega, by omega, ?_⟩
      rw [hy]
      exact hr
    · intro y g1 g2 g3 g4 x x0 x1
      have hk : (((y - y0).toNat : ℕ) : ℤ) = y - y0 := Int.toNat_of_nonneg (by omega)
      obtain ⟨p, hp, e1, e2⟩ := p2 (y - y0).toNat (by omega) x (by rw [hk]; exact x0) (by rw [hk]; exact x1)
      exact ⟨p, hp, e1, by rw [e2, hk]; ring⟩

/-! ## Evaluation -/

theorem row_right {width : ℕ} {y : ℤ} {xs xe : ℝ} (ds de : Fl) (tri : ℕ) (h : 0 ≤ xs) {a b : ℤ} (ha : castInt xs = .ok a)
    (hb : castInt xe = .ok b) : row width y (.fin xs) (.fin xe) ds de tri =
      .ok (pixels y ((de.sub ds).div ((Fl.fin xe).sub (.fin xs))) tri (min ((width : ℤ) - 1) b - a + 1).toNat a ds) := by
  unfold row
  rw [if_neg (by simpa using h)]
  simp only [bind, Except.bind, pure, Except.pure, Fl.toInt, ha, hb]

theorem row_left {width : ℕ} {y : ℤ} {xs xe : ℝ} (ds de : Fl) (tri : ℕ) (h : xs < 0) {b : ℤ}
    (hb : castInt xe = .ok b) : row width y (.fin xs) (.fin xe) ds de tri =
      .ok (pixels y ((de.sub ds).div ((Fl.fin xe).sub (.fin xs))) tri (min ((width : ℤ) - 1) b - 0 + 1).toNat 0
        (ds.add (((de.sub ds).div ((Fl.fin xe).sub (.fin xs))).mul (Fl.fin xs).neg))) := by
  unfold row
  rw [if_pos (by simpa using h)]
  simp only [bind, Except.bind, pure, Except.pure, Fl.toInt, hb]

theorem part_one {width height : ℕ} {y0 y1 : ℤ} {s e : Edge} {tri : ℕ} (h0 : 0 ≤ y0) (h : min ((height : ℤ) - 1) y1 = y0)
    {cs : List PixelCall} (hr : row width y0 s.x e.x s.d e.d tri = .ok cs) : part width height y0 y1 s e tri = .ok cs := by
  unfold part
  rw [if_neg (by omega)]
  simp only [bind, Except.bind, pure, Except.pure, h]
  rw [show (y0 - y0 + 1).toNat = 1 by omega]
  simp only [rows, hr, bind, Except.bind, pure, Except.pure, List.append_nil]

theorem part_none {width height : ℕ} {y0 y1 : ℤ} {s e : Edge} {tri : ℕ} (h0 : 0 ≤ y0) (h : min ((height : ℤ) - 1) y1 < y0) :
    part width height y0 y1 s e tri = .ok [] := by
  unfold part
  rw [if_neg (by omega)]
  simp only [bind, Except.bind, pure, Except.pure]
  rw [show (min ((height : ℤ) - 1) y1 - y0 + 1).toNat = 0 by omega]
  rfl

end Geo
