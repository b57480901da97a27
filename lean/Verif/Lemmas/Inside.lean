import Verif.Lemmas.Sphere
import Verif.Lemmas.WindingMesh

/-!
# The crossing number of a closed mesh for points inside
-/

namespace Geo

open Spec

/-- An affine function that is positive at a point is positive near it. -/
theorem affine_near (A B C D : ℝ) {c : Vec3} (h : 0 < A * c.x + B * c.y + C * c.z + D) :
    ∃ ε > 0, ∀ y, Near ε c y → 0 < A * y.x + B * y.y + C * y.z + D := by
  have hp : 0 < |A| + |B| + |C| + 1 := by positivity
  refine ⟨(A * c.x + B * c.y + C * c.z + D) / (|A| + |B| + |C| + 1), by positivity, ?_⟩
  rintro y ⟨h1, h2, h3⟩
  generalize hε : (A * c.x + B * c.y + C * c.z + D) / (|A| + |B| + |C| + 1) = ε at *
  have he : ε * (|A| + |B| + |C| + 1) = A * c.x + B * c.y + C * c.z + D := by
    rw [← hε]; field_simp
  have hε0 : 0 < ε := by rw [← hε]; positivity
  have key : ∀ K d : ℝ, |d| < ε → -(|K| * ε) ≤ K * d := by
    intro K d hd
    have : |K * d| ≤ |K| * ε := by rw [abs_mul]; exact mul_le_mul_of_nonneg_left hd.le (abs_nonneg _)
    exact (abs_le.1 this).1
  have k1 := key A _ h1
  have k2 := key B _ h2
  have k3 := key C _ h3
  linarith

theorem side_affine (t : Vec3 × Vec3 × Vec3) : ∃ A B C D : ℝ, ∀ y, side t y = A * y.x + B * y.y + C * y.z + D := by
  obtain ⟨a, b, c⟩ := t
  refine ⟨(b.y - a.y) * (c.z - a.z) - (b.z - a.z) * (c.y - a.y),
    (b.z - a.z) * (c.x - a.x) - (b.x - a.x) * (c.z - a.z),
    (b.x - a.x) * (c.y - a.y) - (b.y - a.y) * (c.x - a.x),
    -(((b.y - a.y) * (c.z - a.z) - (b.z - a.z) * (c.y - a.y)) * a.x +
    ((b.z - a.z) * (c.x - a.x) - (b.x - a.x) * (c.z - a.z)) * a.y +
    ((b.x - a.x) * (c.y - a.y) - (b.y - a.y) * (c.x - a.x)) * a.z), fun y => ?_⟩
  simp only [side]; ring

theorem side_near_pos {t : Vec3 × Vec3 × Vec3} {c : Vec3} (h : 0 < side t c) :
    ∃ ε > 0, ∀ y, Near ε c y → 0 < side t y := by
  obtain ⟨A, B, C, D, e⟩ := side_affine t
  rw [e] at h
  obtain ⟨ε, hε, k⟩ := affine_near A B C D h
  exact ⟨ε, hε, fun y hy => by rw [e]; exact k y hy⟩

theorem side_near_neg {t : Vec3 × Vec3 × Vec3} {c : Vec3} (h : side t c < 0) :
    ∃ ε > 0, ∀ y, Near ε c y → side t y < 0 := by
  obtain ⟨A, B, C, D, e⟩ := side_affine t
  rw [e] at h
  obtain ⟨ε, hε, k⟩ := affine_near (-A) (-B) (-C) (-D) (c := c) (by linarith)
  exact ⟨ε, hε, fun y hy => by rw [e]; have := k y hy; linarith⟩

theorem side_lerp' (t : Vec3 × Vec3 × Vec3) (a b : Vec3) (s : ℝ) :
    side t (lerp a b s) = (1 - s) * side t a + s * side t b := by
  simp only [side, lerp]; ring

theorem side_comb (t : Vec3 × Vec3 × Vec3) (a b c : Vec3) {u v w : ℝ} (h : u + v + w = 1) :
    side t ⟨u * a.x + v * b.x + w * c.x, u * a.y + v * b.y + w * c.y, u * a.z + v * b.z + w * c.z⟩ =
      u * side t a + v * side t b + w * side t c := by
  have hu : u = 1 - v - w := by linarith
  subst hu
  simp only [side]; ring

theorem strictly_inTri {t : Vec3 × Vec3 × Vec3} {x : Vec3} (h : StrictlyIn t x) : InTri t x := by
  obtain ⟨u, v, w, hu, hv, hw, hs, e⟩ := h
  exact ⟨u, v, w, hu.le, hv.le, hw.le, hs, e⟩

/-- Near a point strictly in a triangle all points of its plane are strictly in it. -/
theorem strictly_near {t : Vec3 × Vec3 × Vec3} {c x : Vec3} (hc : StrictlyIn t c) (hx : side t x ≠ 0) :
    ∃ ε > 0, ∀ d, Near ε c d → side t d = 0 → StrictlyIn t d := by
  obtain ⟨a, b, e⟩ := t
  obtain ⟨u, v, w, hu, hv, hw, hs, hce⟩ := hc
  dsimp only at hce
  obtain ⟨n, hn⟩ : ∃ n : Vec3, n = ⟨(b.y - a.y) * (e.z - a.z) - (b.z - a.z) * (e.y - a.y),
    (b.z - a.z) * (e.x - a.x) - (b.x - a.x) * (e.z - a.z),
    (b.x - a.x) * (e.y - a.y) - (b.y - a.y) * (e.x - a.x)⟩ := ⟨_, rfl⟩
  have hside : ∀ y, side (a, b, e) y = n.x * (y.x - a.x) + n.y * (y.y - a.y) + n.z * (y.z - a.z) := by
    intro y; rw [hn]; simp only [side]
    try ring
  have hN : 0 < n.x ^ 2 + n.y ^ 2 + n.z ^ 2 := by
    by_contra h
    have h1 : n.x = 0 := by nlinarith [sq_nonneg n.x, sq_nonneg n.y, sq_nonneg n.z]
    have h2 : n.y = 0 := by nlinarith [sq_nonneg n.x, sq_nonneg n.y, sq_nonneg n.z]
    have h3 : n.z = 0 := by nlinarith [sq_nonneg n.x, sq_nonneg n.y, sq_nonneg n.z]
    apply hx; rw [hside, h1, h2, h3]; ring
  have n1 : n.x = (b.y - a.y) * (e.z - a.z) - (b.z - a.z) * (e.y - a.y) := by rw [hn]
  have n2 : n.y = (b.z - a.z) * (e.x - a.x) - (b.x - a.x) * (e.z - a.z) := by rw [hn]
  have n3 : n.z = (b.x - a.x) * (e.y - a.y) - (b.y - a.y) * (e.x - a.x) := by rw [hn]
  clear hn
  -- the weights of the second and third corner, times the squared length of the normal
  have hu' : u = 1 - v - w := by linarith
  obtain ⟨A1, hA1⟩ : ∃ A : Vec3, A = ⟨(e.y - a.y) * n.z - (e.z - a.z) * n.y,
    (e.z - a.z) * n.x - (e.x - a.x) * n.z, (e.x - a.x) * n.y - (e.y - a.y) * n.x⟩ := ⟨_, rfl⟩
  obtain ⟨A2, hA2⟩ : ∃ A : Vec3, A = ⟨-((b.y - a.y) * n.z - (b.z - a.z) * n.y),
    -((b.z - a.z) * n.x - (b.x - a.x) * n.z), -((b.x - a.x) * n.y - (b.y - a.y) * n.x)⟩ := ⟨_, rfl⟩
  obtain ⟨N, hNe⟩ : ∃ N : ℝ, N = n.x ^ 2 + n.y ^ 2 + n.z ^ 2 := ⟨_, rfl⟩
  rw [← hNe] at hN
  have w2 : A1.x * c.x + A1.y * c.y + A1.z * c.z + -(A1.x * a.x + A1.y * a.y + A1.z * a.z) = v * N := by
    rw [hA1, hce, hNe, n1, n2, n3, hu']; ring
  have w3 : A2.x * c.x + A2.y * c.y + A2.z * c.z + -(A2.x * a.x + A2.y * a.y + A2.z * a.z) = w * N := by
    rw [hA2, hce, hNe, n1, n2, n3, hu']; ring
  obtain ⟨ε1, p1, k1⟩ := affine_near A1.x A1.y A1.z (-(A1.x * a.x + A1.y * a.y + A1.z * a.z)) (c := c)
    (by rw [w2]; positivity)
  obtain ⟨ε2, p2, k2⟩ := affine_near A2.x A2.y A2.z (-(A2.x * a.x + A2.y * a.y + A2.z * a.z)) (c := c)
    (by rw [w3]; positivity)
  obtain ⟨ε3, p3, k3⟩ := affine_near (-A1.x - A2.x) (-A1.y - A2.y) (-A1.z - A2.z)
    (N + (A1.x * a.x + A1.y * a.y + A1.z * a.z) + (A2.x * a.x + A2.y * a.y + A2.z * a.z)) (c := c)
    (by have : 0 < u * N := by positivity
        rw [hu'] at this; linarith)
  refine ⟨min ε1 (min ε2 ε3), lt_min p1 (lt_min p2 p3), ?_⟩
  intro d hd h0
  have m1 := k1 d (near_mono hd (min_le_left _ _))
  have m2 := k2 d (near_mono hd ((min_le_right _ _).trans (min_le_left _ _)))
  have m3 := k3 d (near_mono hd ((min_le_right _ _).trans (min_le_right _ _)))
  clear k1 k2 k3 w2 w3
  generalize hq1 : A1.x * d.x + A1.y * d.y + A1.z * d.z + -(A1.x * a.x + A1.y * a.y + A1.z * a.z) = r1 at m1
  generalize hq2 : A2.x * d.x + A2.y * d.y + A2.z * d.z + -(A2.x * a.x + A2.y * a.y + A2.z * a.z) = r2 at m2
  have hr3 : 0 < N - r1 - r2 := by rw [← hq1, ← hq2]; linarith
  refine ⟨(N - r1 - r2) / N, r1 / N, r2 / N, by positivity, by positivity, by positivity,
    by field_simp; ring, ?_⟩
  rw [hside] at h0
  have hNne : N ≠ 0 := hN.ne'
  ext
  · dsimp only
    field_simp
    rw [← hq1, ← hq2, hA1, hA2, hNe]
    dsimp only
    rw [n1, n2, n3] at h0 ⊢
    linear_combination ((b.y - a.y) * (e.z - a.z) - (b.z - a.z) * (e.y - a.y)) * h0
  · dsimp only
    field_simp
    rw [← hq1, ← hq2, hA1, hA2, hNe]
    dsimp only
    rw [n1, n2, n3] at h0 ⊢
    linear_combination ((b.z - a.z) * (e.x - a.x) - (b.x - a.x) * (e.z - a.z)) * h0
  · dsimp only
    field_simp
    rw [← hq1, ← hq2, hA1, hA2, hNe]
    dsimp only
    rw [n1, n2, n3] at h0 ⊢
    linear_combination ((b.x - a.x) * (e.y - a.y) - (b.y - a.y) * (e.x - a.x)) * h0

/-- A segment that goes through a triangle strictly inside passes it. -/
theorem pass_strict {x z : Vec3} {t : Vec3 × Vec3 × Vec3} {s : ℝ} (hx : side t x < 0) (hz : 0 < side t z)
    (h : StrictlyIn t (lerp x z s)) : pass x z t = 2 := by
  have h0 := inTri_side (strictly_inTri h)
  rw [side_lerp'] at h0
  have hs : 0 < s := by
    by_contra hn
    have h1 : 0 ≤ -s * side t z := mul_nonneg (by linarith) hz.le
    have h2 : 0 < (1 - s) * -side t x := mul_pos (by linarith) (by linarith)
    linarith
  obtain ⟨a, b, c⟩ := t
  obtain ⟨u, v, w, hu, hv, hw, hsum, e⟩ := h
  have hu' : u = 1 - v - w := by linarith
  have ex := congrArg Vec3.x e
  have ey := congrArg Vec3.y e
  have ez := congrArg Vec3.z e
  simp only [lerp] at ex ey ez
  have k1 : s * vol4 x z a b = w * -side (a, b, c) x := by
    rw [hu'] at ex ey ez
    simp only [vol4_eq, side]
    linear_combination ((a.y - x.y) * (b.z - x.z) - (a.z - x.z) * (b.y - x.y)) * ex +
      ((a.z - x.z) * (b.x - x.x) - (a.x - x.x) * (b.z - x.z)) * ey +
      ((a.x - x.x) * (b.y - x.y) - (a.y - x.y) * (b.x - x.x)) * ez
  have k2 : s * vol4 x z b c = u * -side (a, b, c) x := by
    rw [hu'] at ex ey ez ⊢
    simp only [vol4_eq, side]
    linear_combination ((b.y - x.y) * (c.z - x.z) - (b.z - x.z) * (c.y - x.y)) * ex +
      ((b.z - x.z) * (c.x - x.x) - (b.x - x.x) * (c.z - x.z)) * ey +
      ((b.x - x.x) * (c.y - x.y) - (b.y - x.y) * (c.x - x.x)) * ez
  have k3 : s * vol4 x z c a = v * -side (a, b, c) x := by
    rw [hu'] at ex ey ez
    simp only [vol4_eq, side]
    linear_combination ((c.y - x.y) * (a.z - x.z) - (c.z - x.z) * (a.y - x.y)) * ex +
      ((c.z - x.z) * (a.x - x.x) - (c.x - x.x) * (a.z - x.z)) * ey +
      ((c.x - x.x) * (a.y - x.y) - (c.y - x.y) * (a.x - x.x)) * ez
  have hX : 0 < -side (a, b, c) x := by linarith
  have p1 : 0 < vol4 x z a b := by
    have : 0 < s * vol4 x z a b := by rw [k1]; positivity
    exact (mul_pos_iff_of_pos_left hs).1 this
  have p2 : 0 < vol4 x z b c := by
    have : 0 < s * vol4 x z b c := by rw [k2]; positivity
    exact (mul_pos_iff_of_pos_left hs).1 this
  have p3 : 0 < vol4 x z c a := by
    have : 0 < s * vol4 x z c a := by rw [k3]; positivity
    exact (mul_pos_iff_of_pos_left hs).1 this
  unfold pass touch
  dsimp only
  rw [up_neg hx, up_pos hz.le, if_pos (Or.inl ⟨p1.le, p2.le, p3.le⟩), sg_pos p1, sg_pos p2, sg_pos p3,
    sg_pos (by linarith)]
  norm_num

/-- Near a point strictly in a triangle all segments from its inner to its outer side pass it. -/
theorem pass_near {t : Vec3 × Vec3 × Vec3} {c y : Vec3} (hc : StrictlyIn t c) (hy : side t y ≠ 0) :
    ∃ ε > 0, ∀ x z, Near ε c x → Near ε c z → side t x < 0 → 0 < side t z → pass x z t = 2 := by
  obtain ⟨ε, hε, h⟩ := strictly_near hc hy
  refine ⟨ε, hε, fun x z nx nz hx hz => ?_⟩
  have hd : 0 < side t z - side t x := by linarith
  have e : side t (lerp x z (-side t x / (side t z - side t x))) = 0 := by
    rw [side_lerp']; field_simp; ring
  refine pass_strict (s := -side t x / (side t z - side t x)) hx hz (h _ (near_lerp nx nz ?_ ?_) e)
  · exact div_nonneg (by linarith) hd.le
  · rw [div_le_one hd]; linarith

/-- Through a triangle the crossing number changes by one crossing. -/
theorem value_cross {q p : Vec3} {l₁ l₂ : List (Vec3 × Vec3 × Vec3)} {t : Vec3 × Vec3 × Vec3}
    (hc : ClosedSoup (l₁ ++ t :: l₂))
    (hq : ∀ t' ∈ l₁ ++ t :: l₂, ¬ InTri t' q) (hp : ∀ t' ∈ l₁ ++ t :: l₂, Sound p q t') {c y : Vec3}
    (hs : StrictlyIn t c) (hy : side t y ≠ 0) (hoff : ∀ t' ∈ l₁ ++ l₂, ¬ InTri t' c) :
    ∃ ε > 0, ∀ a b, Near ε c a → Near ε c b → side t a < 0 → 0 < side t b → ∀ n,
      Value q (l₁ ++ t :: l₂) b n → Value q (l₁ ++ t :: l₂) a (n + 2) := by
  obtain ⟨ε1, h1, k1⟩ := pass_near hs hy
  obtain ⟨ε2, h2, k2⟩ := off_near_all hoff
  obtain ⟨ε, hε⟩ : ∃ ε, ε = min ε1 ε2 := ⟨_, rfl⟩
  have hε0 : 0 < ε := hε ▸ lt_min h1 h2
  have hε1 : ε ≤ ε1 := hε ▸ min_le_left _ _
  have hε2 : ε ≤ ε2 := hε ▸ min_le_right _ _
  refine ⟨ε / 2, by linarith, ?_⟩
  intro a b na nb ha hb n hv
  obtain ⟨δ, hδ, hv⟩ := hv
  obtain ⟨δa, hδa, ka⟩ := side_near_neg ha
  obtain ⟨δb, hδb, kb⟩ := side_near_pos hb
  refine ⟨min δa (ε / 2), lt_min hδa (by linarith), ?_⟩
  intro x hx nx
  have sx : side t x < 0 := ka x (near_mono nx (min_le_left _ _))
  have cx : Near ε c x := by
    have := near_trans na (near_mono nx (min_le_right _ _))
    rwa [add_halves] at this
  obtain ⟨ts, hts⟩ : ∃ ts, ts = l₁ ++ t :: l₂ := ⟨_, rfl⟩
  rw [← hts] at hc hq hp hv hx ⊢
  obtain ⟨z, nz, hz⟩ := exists_generic_list (x :: q :: cornerList ts) b
    (lt_min hδ (lt_min hδb (by linarith : 0 < ε / 2)))
  have sz : 0 < side t z := kb z (near_mono nz ((min_le_right _ _).trans (min_le_left _ _)))
  have cz : Near ε c z := by
    have := near_trans nb (near_mono nz ((min_le_right _ _).trans (min_le_right _ _)))
    rwa [add_halves] at this
  have sub : ∀ t ∈ ts, ∀ u ∈ [x, q, t.1, t.2.1, t.2.2], u ∈ x :: q :: cornerList ts := by
    intro t ht u hu
    simp only [List.mem_cons, List.not_mem_nil, or_false] at hu
    rcases hu with rfl | rfl | hu
    · simp
    · simp
    · have := mem_corners ht (v := u) (by simpa using hu)
      simp [this]
  have soundz : ∀ t' ∈ ts, Sound z q t' := by
    rintro ⟨t1, t2, t3⟩ ht
    have hm : ∀ v ∈ [t1, t2, t3], v ∈ x :: q :: cornerList ts := fun v hv => by
      simp [mem_corners ht hv]
    have m0 : q ∈ x :: q :: cornerList ts := by simp
    have m1 := hm t1 (by simp)
    have m2 := hm t2 (by simp)
    have m3 := hm t3 (by simp)
    have h0 := (hp _ ht).1
    dsimp only at h0
    exact sound_generic (hq _ ht) h0 (hz q m0 _ m1 _ m2) (hz q m0 _ m2 _ m3) (hz q m0 _ m3 _ m1)
  have offx : ∀ t' ∈ ts, ¬ InTri t' x := by
    intro t' ht'
    rw [hts, List.mem_append, List.mem_cons] at ht'
    by_cases e : t' = t
    · intro hi
      rw [e] at hi
      rw [inTri_side hi] at sx
      exact lt_irrefl _ sx
    · refine k2 t' ?_ x (near_mono cx hε2)
      rw [List.mem_append]
      rcases ht' with h | h | h
      · exact .inl h
      · exact absurd h e
      · exact .inr h
  rw [total_jump (z := z) hc hq offx hx
    (fun t ht u hu v hv w hw => hz u (sub t ht u hu) v (sub t ht v hv) w (sub t ht w hw)),
    hv z soundz (near_mono nz (min_le_left _ _)), hts]
  have hav : ∀ t' ∈ l₁ ++ l₂, pass x z t' = 0 := fun t' ht' =>
    pass_avoid fun s h0 h1 => k2 t' ht' _ (near_mono (near_lerp cx cz h0 h1) hε2)
  have zero : ∀ l : List (Vec3 × Vec3 × Vec3), (∀ t' ∈ l, t' ∈ l₁ ++ l₂) → (l.map (pass x z)).sum = 0 := by
    intro l hl
    apply List.sum_eq_zero
    intro n hn
    obtain ⟨t', ht', rfl⟩ := List.mem_map.1 hn
    exact hav t' (hl t' ht')
  rw [List.map_append, List.map_cons, List.sum_append, List.sum_cons,
    zero l₁ (fun t' h => by simp [h]), zero l₂ (fun t' h => by simp [h]),
    k1 x z (near_mono cx hε1) (near_mono cz hε1) sx sz]
  ring

theorem lerp_near (a b : Vec3) (s : ℝ) {ε : ℝ} (hε : 0 < ε) :
    ∃ δ > 0, ∀ s', |s' - s| < δ → Near ε (lerp a b s) (lerp a b s') := by
  have key : ∀ u v : ℝ, ∃ δ > 0, ∀ s', |s' - s| < δ → |u + s' * (v - u) - (u + s * (v - u))| < ε := by
    intro u v
    have hp : 0 < |v - u| + 1 := by positivity
    refine ⟨ε / (|v - u| + 1), by positivity, fun s' h => ?_⟩
    have e : u + s' * (v - u) - (u + s * (v - u)) = (s' - s) * (v - u) := by ring
    rw [e, abs_mul]
    rw [lt_div_iff₀ hp] at h
    have := abs_nonneg (s' - s)
    have := abs_nonneg (v - u)
    by_cases h0 : |s' - s| = 0
    · rw [h0]; simpa using hε
    · have : 0 < |s' - s| := lt_of_le_of_ne (abs_nonneg _) (Ne.symm h0)
      linarith
  obtain ⟨d1, p1, k1⟩ := key a.x b.x
  obtain ⟨d2, p2, k2⟩ := key a.y b.y
  obtain ⟨d3, p3, k3⟩ := key a.z b.z
  refine ⟨min d1 (min d2 d3), lt_min p1 (lt_min p2 p3), fun s' h => ⟨k1 s' ?_, k2 s' ?_, k3 s' ?_⟩⟩
  · exact lt_of_lt_of_le h (min_le_left _ _)
  · exact lt_of_lt_of_le h ((min_le_right _ _).trans (min_le_left _ _))
  · exact lt_of_lt_of_le h ((min_le_right _ _).trans (min_le_right _ _))

theorem lerp_lerp (a b : Vec3) (s r u : ℝ) :
    lerp (lerp a b s) (lerp a b r) u = lerp a b (s + u * (r - s)) := by
  ext <;> simp only [lerp] <;> ring

/-- A closed mesh is crossed once more outwards than inwards by a sound probe from a point inside. -/
theorem total_inside {q p : Vec3} {ts : List (Vec3 × Vec3 × Vec3)} (hc : ClosedSoup ts)
    (hp : ∀ t ∈ ts, Sound p q t) (hqy : q.y = 0) (hqz : q.z = 0)
    (hq : ∀ t ∈ ts, ∀ v ∈ [t.1, t.2.1, t.2.2], n2 v < n2 q) (he : Enclosed ts p) : total q ts p = 2 := by
  obtain ⟨l₁, t, l₂, a, b, hts, hj, hesc, ha, hb, ⟨s, hs0, hs1, hs⟩, hoff⟩ := he
  have hq' : ∀ t ∈ ts, ¬ InTri t q := fun t ht => off_far (hq t ht)
  apply value_self hp
  rw [value_joined hc hq' hp hj]
  have hvb := value_outside hc hp hqy hqz hq hesc
  have h0 := inTri_side (strictly_inTri hs)
  rw [side_lerp'] at h0
  have hd : 0 < side t b - side t a := by linarith
  have hlin : ∀ s', side t (lerp a b s') = (s' - s) * (side t b - side t a) := by
    intro s'; rw [side_lerp']; linarith
  have hsp : 0 < s := by
    rcases hs0.lt_or_eq with h | h
    · exact h
    · exfalso; rw [← h] at h0; linarith
  have hsl : s < 1 := by
    rcases hs1.lt_or_eq with h | h
    · exact h
    · exfalso; rw [h] at h0; linarith
  have offs : ∀ s', 0 ≤ s' → s' ≤ 1 → s' ≠ s → ∀ t' ∈ ts, ¬ InTri t' (lerp a b s') := by
    intro s' g0 g1 hne t' ht'
    rw [hts, List.mem_append, List.mem_cons] at ht'
    by_cases e : t' = t
    · intro hi
      rw [e] at hi
      have := inTri_side hi
      rw [hlin] at this
      rcases mul_eq_zero.1 this with h | h
      · exact hne (by linarith)
      · linarith
    · refine hoff s' g0 g1 t' ?_
      rw [List.mem_append]
      rcases ht' with h | h | h
      · exact .inl h
      · exact absurd h e
      · exact .inr h
  rw [hts] at hc hp hq' hvb offs ⊢
  obtain ⟨ε, hε, hv⟩ := value_cross (y := a) hc hq' hp hs ha.ne (hoff s hs0 hs1)
  obtain ⟨δ, hδ, hn⟩ := lerp_near a b s hε
  obtain ⟨η, hη⟩ : ∃ η, η = min (δ / 2) (min s (1 - s)) := ⟨_, rfl⟩
  have hη0 : 0 < η := hη ▸ lt_min (by linarith) (lt_min hsp (by linarith))
  have hη1 : η ≤ δ / 2 := hη ▸ min_le_left _ _
  have hη2 : η ≤ s := hη ▸ (min_le_right _ _).trans (min_le_left _ _)
  have hη3 : η ≤ 1 - s := hη ▸ (min_le_right _ _).trans (min_le_right _ _)
  have e0 : lerp a b 0 = a := by ext <;> simp [lerp]
  have e1 : lerp a b 1 = b := by ext <;> simp [lerp]
  have va : Value q (l₁ ++ t :: l₂) a 2 ↔ Value q (l₁ ++ t :: l₂) (lerp a b (s - η)) 2 := by
    have := value_seg (a := lerp a b 0) (b := lerp a b (s - η)) (n := 2) hc hq' hp ?_
    · rwa [e0] at this
    · intro u u0 u1 t' ht'
      rw [lerp_lerp]
      have b0 : 0 ≤ u * (s - η) := mul_nonneg u0 (by linarith)
      have b1 : u * (s - η) ≤ s - η := mul_le_of_le_one_left (by linarith) u1
      exact offs _ (by linarith) (by linarith) (by intro h; linarith) t' ht'
  have vb : Value q (l₁ ++ t :: l₂) (lerp a b (s + η)) 0 := by
    have := value_seg (a := lerp a b (s + η)) (b := lerp a b 1) (n := 0) hc hq' hp ?_
    · rw [e1] at this; exact this.2 hvb
    · intro u u0 u1 t' ht'
      rw [lerp_lerp]
      have b0 : 0 ≤ u * (1 - (s + η)) := mul_nonneg u0 (by linarith)
      have b1 : u * (1 - (s + η)) ≤ 1 - (s + η) := mul_le_of_le_one_left (by linarith) u1
      exact offs _ (by linarith) (by linarith) (by intro h; linarith) t' ht'
  rw [va]
  have := hv (lerp a b (s - η)) (lerp a b (s + η)) (hn _ ?_) (hn _ ?_) ?_ ?_ 0 vb
  · simpa using this
  · rw [abs_lt]; constructor <;> linarith
  · rw [abs_lt]; constructor <;> linarith
  · rw [hlin]
    have : 0 < η * (side t b - side t a) := mul_pos hη0 hd
    linarith
  · rw [hlin]
    have : 0 < η * (side t b - side t a) := mul_pos hη0 hd
    linarith

/-! ## Convex meshes -/

theorem joined_seg {ts : List (Vec3 × Vec3 × Vec3)} {a b : Vec3}
    (h : ∀ s, 0 ≤ s → s ≤ 1 → ∀ t ∈ ts, ¬ InTri t (lerp a b s)) : Joined ts a b :=
  ⟨fun s => lerp a b s, by simp only [lerp]; fun_prop, by simp only [lerp]; fun_prop,
    by simp only [lerp]; fun_prop, by ext <;> simp [lerp], by ext <;> simp [lerp],
    fun s hs => h s hs.1 hs.2⟩

theorem inTri_inner {t t' : Vec3 × Vec3 × Vec3} (h : ∀ v ∈ [t'.1, t'.2.1, t'.2.2], side t v ≤ 0) {x : Vec3}
    (hx : InTri t' x) : side t x ≤ 0 := by
  obtain ⟨u, v, w, hu, hv, hw, hs, rfl⟩ := hx
  rw [side_comb _ _ _ _ hs]
  have h1 := mul_nonneg hu (neg_nonneg.2 (h t'.1 (by simp)))
  have h2 := mul_nonneg hv (neg_nonneg.2 (h t'.2.1 (by simp)))
  have h3 := mul_nonneg hw (neg_nonneg.2 (h t'.2.2 (by simp)))
  linarith

theorem norms_bounded (l : List Vec3) : ∃ M : ℝ, 0 ≤ M ∧ ∀ v ∈ l, n2 v ≤ M := by
  induction l with
  | nil => exact ⟨0, le_rfl, by simp⟩
  | cons v l ih =>
    obtain ⟨M, h0, h⟩ := ih
    refine ⟨max M (n2 v), le_max_of_le_left h0, ?_⟩
    intro w hw
    rcases List.mem_cons.1 hw with rfl | hw
    · exact le_max_right _ _
    · exact (h w hw).trans (le_max_left _ _)

/-- A point on the outer side of a plane with the whole mesh on its inner side is outside. -/
theorem escapes_side {ts : List (Vec3 × Vec3 × Vec3)} {t : Vec3 × Vec3 × Vec3} {y : Vec3}
    (h : ∀ t' ∈ ts, ∀ v ∈ [t'.1, t'.2.1, t'.2.2], side t v ≤ 0) (hy : 0 < side t y) : Escapes ts y := by
  obtain ⟨A, B, C, D, e⟩ := side_affine t
  have hN : 0 < A ^ 2 + B ^ 2 + C ^ 2 ∨ (A = 0 ∧ B = 0 ∧ C = 0) := by
    by_cases hA : A = 0
    · by_cases hB : B = 0
      · by_cases hC : C = 0
        · exact .inr ⟨hA, hB, hC⟩
        · left; have := sq_pos_of_ne_zero (R := ℝ) hC; nlinarith [sq_nonneg A, sq_nonneg B]
      · left; have := sq_pos_of_ne_zero (R := ℝ) hB; nlinarith [sq_nonneg A, sq_nonneg C]
    · left; have := sq_pos_of_ne_zero (R := ℝ) hA; nlinarith [sq_nonneg B, sq_nonneg C]
  rcases hN with hN | ⟨rfl, rfl, rfl⟩
  · obtain ⟨M, hM, hb⟩ := norms_bounded (cornerList ts)
    obtain ⟨N, hNe⟩ : ∃ N, N = A ^ 2 + B ^ 2 + C ^ 2 := ⟨_, rfl⟩
    rw [← hNe] at hN
    obtain ⟨P, hP⟩ : ∃ P, P = A * y.x + B * y.y + C * y.z := ⟨_, rfl⟩
    obtain ⟨K, hK0, hK⟩ : ∃ K : ℝ, 0 ≤ K ∧ M < n2 y + 2 * K * P + K ^ 2 * N := by
      refine ⟨(2 * |P| + M) / N + 1, by positivity, ?_⟩
      have e1 : ((2 * |P| + M) / N + 1) * N = 2 * |P| + M + N := by field_simp
      generalize hk : (2 * |P| + M) / N + 1 = K at *
      have hK1 : 1 ≤ K := by
        rw [← hk]
        have : 0 ≤ (2 * |P| + M) / N := by positivity
        linarith
      have e2 : K ^ 2 * N = K * (2 * |P| + M + N) := by rw [← e1]; ring
      have hy2 : 0 ≤ n2 y := by unfold n2; positivity
      have b1 : 0 ≤ K * (P + |P|) := mul_nonneg (by linarith) (by linarith [neg_abs_le P])
      have b2 : M + N ≤ K * (M + N) := le_mul_of_one_le_left (by linarith) hK1
      rw [e2]
      linarith
    have hs0 : ∀ s : ℝ, side t (lerp y ⟨y.x + K * A, y.y + K * B, y.z + K * C⟩ s) =
        side t y + s * K * N := by
      intro s; rw [e, e, hNe]; simp only [lerp]; ring
    refine ⟨⟨y.x + K * A, y.y + K * B, y.z + K * C⟩, joined_seg ?_, ?_⟩
    · intro s h0 h1 t' ht' hi
      have := inTri_inner (h t' ht') hi
      rw [hs0] at this
      have : 0 ≤ s * K * N := by positivity
      linarith
    · intro t' ht' v hv
      have h1 := hb v (mem_corners ht' hv)
      unfold Spec.dist
      apply Real.sqrt_lt_sqrt
      · unfold distSq; positivity
      · simp only [distSq, sub_zero]
        have : n2 ⟨y.x + K * A, y.y + K * B, y.z + K * C⟩ = n2 y + 2 * K * P + K ^ 2 * N := by
          rw [hP, hNe]; simp only [n2]; ring
        simp only [n2] at this h1
        rw [this]
        exact lt_of_le_of_lt h1 hK
  · have hD : 0 < D := by rw [e] at hy; linarith
    cases ts with
    | nil =>
      exact ⟨y, joined_seg (fun s _ _ t' ht' => by simp at ht'), fun t' ht' => by simp at ht'⟩
    | cons t' ts =>
      exfalso
      have := h t' (by simp) t'.1 (by simp)
      rw [e] at this
      linarith

/-- A point on the inner side of all planes of a convex mesh is inside. -/
theorem enclosed_convex {ts : List (Vec3 × Vec3 × Vec3)} (hc : ConvexSoup ts) (hf : HasFace ts) {p : Vec3}
    (hp : ∀ t ∈ ts, side t p < 0) : Enclosed ts p := by
  obtain ⟨l₁, t, l₂, c, hts, hs, hoff⟩ := hf
  have ht : t ∈ ts := by rw [hts]; simp
  have hc0 : side t c = 0 := inTri_side (strictly_inTri hs)
  have e : ∀ t' s, side t' (lerp p (lerp p c 2) s) = (1 - 2 * s) * side t' p + 2 * s * side t' c := by
    intro t' s
    rw [side_lerp', side_lerp']; ring
  have e1 : lerp p (lerp p c 2) (1 / 2) = c := by ext <;> simp only [lerp] <;> ring
  have hb : 0 < side t (lerp p c 2) := by
    rw [side_lerp', hc0]
    have := hp t ht
    linarith
  have hsub : ∀ t' ∈ l₁ ++ l₂, t' ∈ ts := by
    intro t' h
    rw [hts]
    rw [List.mem_append] at h
    rcases h with h | h <;> simp [h]
  refine ⟨l₁, t, l₂, p, lerp p c 2, hts, joined_seg ?_, escapes_side (hc t ht) hb, hp t ht, hb,
    ⟨1 / 2, by norm_num, by norm_num, by rw [e1]; exact hs⟩, ?_⟩
  · intro s _ _ t' ht' hi
    have e0 : lerp p p s = p := by ext <;> simp [lerp]
    rw [e0] at hi
    have := hp t' ht'
    rw [inTri_side hi] at this
    exact lt_irrefl _ this
  · intro s h0 h1 t' ht' hi
    rcases lt_trichotomy s (1 / 2) with g | g | g
    · have h2 := inTri_side hi
      rw [e] at h2
      have h3 : side t' c ≤ 0 := inTri_inner (hc t' (hsub t' ht') t ht) (strictly_inTri hs)
      have h4 := hp t' (hsub t' ht')
      have h5 : 0 < (1 - 2 * s) * -side t' p := mul_pos (by linarith) (by linarith)
      have h6 : 0 ≤ 2 * s * -side t' c := mul_nonneg (by linarith) (by linarith)
      linarith
    · rw [g, e1] at hi
      exact hoff t' ht' hi
    · have h2 := inTri_inner (hc t ht t' (hsub t' ht')) hi
      rw [e, hc0] at h2
      have h4 := hp t ht
      have h5 : 0 < (2 * s - 1) * -side t p := mul_pos (by linarith) (by linarith)
      linarith

/-! ## The probe of the code -/

theorem soup_corner_mem {ps : List Vec3} {is : List TriI} {ts : List (Vec3 × Vec3 × Vec3)}
    (hs : soup ps is = some ts) : ∀ t ∈ ts, ∀ v ∈ [t.1, t.2.1, t.2.2], v ∈ ps := by
  rw [Mesh.soup_some] at hs
  induction hs with
  | nil => simp
  | @cons i c is ts' hc _ ih =>
    intro t ht v hv
    rcases List.mem_cons.1 ht with rfl | ht
    · simp only [List.mem_cons, List.not_mem_nil, or_false] at hv
      rcases hv with rfl | rfl | rfl
      · exact List.mem_of_getElem? hc.1
      · exact List.mem_of_getElem? hc.2.1
      · exact List.mem_of_getElem? hc.2.2
    · exact ih t ht v hv

theorem n2_le {v : Vec3} {r : ℝ} (hv : Spec.dist v ⟨0, 0, 0⟩ ≤ r) : n2 v ≤ r ^ 2 := by
  rw [Spec.dist, Real.sqrt_le_left ((Real.sqrt_nonneg _).trans hv)] at hv
  simpa [distSq, n2] using hv

theorem dist_zero {v : Vec3} (hv : Spec.dist v ⟨0, 0, 0⟩ ≤ 0) : v = ⟨0, 0, 0⟩ := by
  have := n2_le hv
  simp only [n2] at this
  ext
  · simp only; nlinarith [sq_nonneg v.x, sq_nonneg v.y, sq_nonneg v.z]
  · simp only; nlinarith [sq_nonneg v.x, sq_nonneg v.y, sq_nonneg v.z]
  · simp only; nlinarith [sq_nonneg v.x, sq_nonneg v.y, sq_nonneg v.z]

/-- The far end of the probe is beyond all corners. -/
theorem far_pos {ps : List Vec3} {is : List TriI} {ts : List (Vec3 × Vec3 × Vec3)}
    (hs : soup ps is = some ts) {r : ℝ} (hr : IsRadius ps r) (h0 : 0 < r) :
    ∀ t ∈ ts, ∀ v ∈ [t.1, t.2.1, t.2.2], n2 v < n2 ⟨1.1 * r, 0, 0⟩ := by
  intro t ht v hv
  have h1 := n2_le (hr.1 v (soup_corner_mem hs t ht v hv))
  have e : n2 ⟨1.1 * r, 0, 0⟩ = 1.21 * r ^ 2 := by simp only [n2]; ring
  have : 0 < r ^ 2 := by positivity
  rw [e]; linarith

theorem far_end {ps : List Vec3} {is : List TriI} {ts : List (Vec3 × Vec3 × Vec3)}
    (hs : soup ps is = some ts) {r : ℝ} (hr : IsRadius ps r) {p : Vec3} (hp : Spec.dist p ⟨0, 0, 0⟩ ≤ r)
    (hoff : ∀ t ∈ ts, ¬ InTri t p) :
    ∀ t ∈ ts, ∀ v ∈ [t.1, t.2.1, t.2.2], n2 v < n2 ⟨1.1 * r, 0, 0⟩ := by
  rcases ((Real.sqrt_nonneg _).trans hp).lt_or_eq with h | h
  · exact far_pos hs hr h
  · intro t ht
    exfalso
    have zero : ∀ w ∈ [t.1, t.2.1, t.2.2], w = ⟨0, 0, 0⟩ := fun w hw =>
      dist_zero ((hr.1 w (soup_corner_mem hs t ht w hw)).trans h.ge)
    refine hoff t ht ⟨1, 0, 0, by norm_num, le_rfl, le_rfl, by norm_num, ?_⟩
    rw [dist_zero (hp.trans h.ge), zero t.1 (by simp), zero t.2.1 (by simp), zero t.2.2 (by simp)]
    ext <;> simp

/-- A mesh with a point inside has a positive radius. -/
theorem enclosed_pos {ps : List Vec3} {is : List TriI} {ts : List (Vec3 × Vec3 × Vec3)}
    (hs : soup ps is = some ts) {r : ℝ} (hr : IsRadius ps r) {p : Vec3} (h : Enclosed ts p) : 0 < r := by
  obtain ⟨l₁, t, l₂, a, -, e, -, -, ha, -⟩ := h
  have ht : t ∈ ts := by rw [e]; simp
  have hd := hr.1 t.1 (soup_corner_mem hs t ht _ (by simp))
  rcases ((Real.sqrt_nonneg _).trans hd).lt_or_eq with h | h
  · exact h
  · exfalso
    have zero : ∀ w ∈ [t.1, t.2.1, t.2.2], w = ⟨0, 0, 0⟩ := fun w hw =>
      dist_zero ((hr.1 w (soup_corner_mem hs t ht w hw)).trans h.ge)
    simp only [side, zero t.1 (by simp), zero t.2.1 (by simp), zero t.2.2 (by simp)] at ha
    norm_num at ha

/-- A point inside a closed mesh is not beyond its radius. -/
theorem enclosed_near {ps : List Vec3} {is : List TriI} {ts : List (Vec3 × Vec3 × Vec3)}
    (hs : soup ps is = some ts) {r : ℝ} (hr : IsRadius ps r) {p : Vec3} (hcl : ClosedSoup ts)
    (hoff : ∀ t ∈ ts, ¬ InTri t p) (hsound : ∀ t ∈ ts, Sound p ⟨1.1 * r, 0, 0⟩ t) (h : Enclosed ts p) :
    Spec.dist p ⟨0, 0, 0⟩ ≤ r := by
  by_contra hn
  rw [not_le] at hn
  have hfar := far_pos hs hr (enclosed_pos hs hr h)
  have h2 := total_inside hcl hsound rfl rfl hfar h
  rw [total_outside hcl hsound rfl rfl hfar ⟨p, joined_seg ?_, ?_⟩] at h2
  · norm_num at h2
  · intro s _ _ t ht
    have e0 : lerp p p s = p := by ext <;> simp [lerp]
    rw [e0]; exact hoff t ht
  · intro t ht v hv
    exact lt_of_le_of_lt (hr.1 v (soup_corner_mem hs t ht v hv)) hn

/-- A point the area test finds off a triangle is off it. -/
theorem off_of_heron {t : Vec3 × Vec3 × Vec3} {p : Vec3} (h : (1e-12 : ℝ) ≤
    |heron t.2.1 p t.2.2 + heron p t.1 t.2.2 + heron p t.1 t.2.1 - heron t.1 t.2.1 t.2.2|) :
    ¬ InTri t p := by
  rintro ⟨a, b, c, ha, hb, hc, hs, e⟩
  simp only [heron_eq] at h
  exact absurd (area_sum ha hb hc hs e) (not_lt.2 h)

/-- The sum of the weights of all triangles is the crossing number. -/
theorem total_weight {p q : Vec3} {is : List TriI} {ts : List (Vec3 × Vec3 × Vec3)}
    (hl : ts.length = is.length) (hp : ∀ t ∈ ts, ¬ InTri t p) (hq : ∀ t ∈ ts, ¬ InTri t q)
    (hnz : ∀ t ∈ ts, ¬ (vol4 p q t.1 t.2.1 = 0 ∧ vol4 p q t.2.1 t.2.2 = 0 ∧ vol4 p q t.2.2 t.1 = 0))
    (hv : ∀ x ∈ is.zip ts, ∀ i, contact p q x ≠ some (.vertex i)) :
    (∀ t ∈ ts, Sound p q t) ∧ ((is.zip ts).map (weight2 p q)).sum = total q ts p := by
  have hz : ∀ x ∈ is.zip ts, Sound p q x.2 ∧ pass p q x.2 = weight2 p q x := by
    intro x hx
    have hm : x.2 ∈ ts := (List.of_mem_zip (a := x.1) (b := x.2) hx).2
    exact pass_weight (hp _ hm) (hq _ hm) (hnz _ hm) (hv x hx)
  have e : ts = (is.zip ts).map Prod.snd := by rw [List.map_snd_zip]; omega
  constructor
  · intro t ht
    rw [e] at ht
    obtain ⟨x, hx, rfl⟩ := List.mem_map.1 ht
    exact (hz x hx).1
  · have : total q ts p = (((is.zip ts).map Prod.snd).map (pass p q)).sum := by
      rw [← e]; rfl
    rw [this, List.map_map]
    congr 1
    apply List.map_congr_left
    intro x hx
    exact (hz x hx).2.symm

theorem not_all_zero {p q : Vec3} {t : Vec3 × Vec3 × Vec3} (h : ∃ e ∈ rim t, vol4 p q e.1 e.2 ≠ 0) :
    ¬ (vol4 p q t.1 t.2.1 = 0 ∧ vol4 p q t.2.1 t.2.2 = 0 ∧ vol4 p q t.2.2 t.1 = 0) := by
  rintro ⟨h1, h2, h3⟩
  obtain ⟨e, he, hne⟩ := h
  simp only [rim, List.mem_cons, List.not_mem_nil, or_false] at he
  rcases he with rfl | rfl | rfl
  · exact hne h1
  · exact hne h2
  · exact hne h3

/-- The sum of the crossings of all triangles is half the crossing number. -/
theorem total_crossing {p q : Vec3} {ts : List (Vec3 × Vec3 × Vec3)} (hp : ∀ t ∈ ts, ¬ InTri t p)
    (hq : ∀ t ∈ ts, ¬ InTri t q) (hgen : ∀ t ∈ ts, ∀ e ∈ rim t, vol4 p q e.1 e.2 ≠ 0) :
    (∀ t ∈ ts, Sound p q t) ∧ 2 * (ts.map (crossing p q)).sum = total q ts p := by
  have hz : ∀ t ∈ ts, Sound p q t ∧ pass p q t = 2 * crossing p q t := fun t ht =>
    pass_crossing (hp t ht) (hq t ht) (hgen t ht (t.1, t.2.1) (by simp [rim])) (hgen t ht (t.2.1, t.2.2) (by simp [rim]))
      (hgen t ht (t.2.2, t.1) (by simp [rim]))
  refine ⟨fun t ht => (hz t ht).1, ?_⟩
  unfold total
  rw [List.map_congr_left (fun t ht => (hz t ht).2), List.sum_map_mul_left]

theorem ne_zero_of_tolerance {x : ℝ} (h : 1e-16 < |x|) : x ≠ 0 := by
  rintro rfl
  norm_num at h

/-! ## Boxes -/

theorem box_face {lo hi : Vec3} (h1 : lo.x < hi.x) (h2 : lo.y < hi.y) (h3 : lo.z < hi.z)
    {ts : List (Vec3 × Vec3 × Vec3)}
    (hs : soup (Box.new lo hi).mesh.points (Box.new lo hi).mesh.tris = some ts) :
    HasFace ts := by
  have ets := hs
  rw [box_soup] at ets
  have ets := (Option.some.inj ets).symm
  have hx : 0 < hi.x - lo.x := by linarith
  have hy : 0 < hi.y - lo.y := by linarith
  have hz : 0 < hi.z - lo.z := by linarith
  have xy := mul_pos hx hy
  have yz := mul_pos hy hz
  have xz := mul_pos hx hz
  refine ⟨[], _, _, ⟨(2 * lo.x + hi.x) / 3, (2 * lo.y + hi.y) / 3, lo.z⟩, ets, ⟨1 / 3, 1 / 3, 1 / 3,
    by norm_num, by norm_num, by norm_num, by norm_num, by ext <;> simp only <;> ring⟩, ?_⟩
  intro t ht hi'
  have xyz := mul_pos xy hz
  simp only [List.nil_append, List.mem_cons, List.not_mem_nil, or_false] at ht
  rcases ht with rfl | ht
  · obtain ⟨u, v, w, hu, hv, hw', hsum, e⟩ := hi'
    have ex := congrArg Vec3.x e
    have ey := congrArg Vec3.y e
    simp only at ex ey
    have hu' : u = 1 - v - w := by linarith
    subst hu'
    have a1 : (1 - v) * (hi.x - lo.x) = 1 / 3 * (hi.x - lo.x) := by linarith
    have a2 : (v + w) * (hi.y - lo.y) = 1 / 3 * (hi.y - lo.y) := by linarith
    have b1 := mul_right_cancel₀ hx.ne' a1
    have b2 := mul_right_cancel₀ hy.ne' a2
    linarith
  · have := inTri_side hi'
    rcases ht with rfl | rfl | rfl | rfl | rfl | rfl | rfl | rfl | rfl | rfl <;>
      simp only [side] at this <;> linarith

theorem box_outer {lo hi : Vec3} (h1 : lo.x < hi.x) (h2 : lo.y < hi.y) (h3 : lo.z < hi.z)
    {ts : List (Vec3 × Vec3 × Vec3)}
    (hs : soup (Box.new lo hi).mesh.points (Box.new lo hi).mesh.tris = some ts)
    {p : Vec3} (hnot : ¬ InBox lo hi p) : ∃ t ∈ ts, 0 < side t p := by
  have ets := hs
  rw [box_soup] at ets
  have ets := (Option.some.inj ets).symm
  have hx : 0 < hi.x - lo.x := by linarith
  have hy : 0 < hi.y - lo.y := by linarith
  have hz : 0 < hi.z - lo.z := by linarith
  have xy := mul_pos hx hy
  have yz := mul_pos hy hz
  have xz := mul_pos hx hz
  have mem : ∀ t, t ∈ ts ↔ t ∈ _ := fun t => by rw [ets]
  simp only [List.mem_cons, List.not_mem_nil, or_false] at mem
  unfold InBox at hnot
  by_cases g1 : lo.x ≤ p.x
  · by_cases g2 : p.x ≤ hi.x
    · by_cases g3 : lo.y ≤ p.y
      · by_cases g4 : p.y ≤ hi.y
        · by_cases g5 : lo.z ≤ p.z
          · by_cases g6 : p.z ≤ hi.z
            · exact absurd ⟨g1, g2, g3, g4, g5, g6⟩ hnot
            · have := mul_pos xy (by linarith : 0 < p.z - hi.z)
              exact ⟨_, (mem _).2 (.inr (.inr (.inl rfl))), by simp only [side]; linarith⟩
          · have := mul_pos xy (by linarith : 0 < lo.z - p.z)
            exact ⟨_, (mem _).2 (.inl rfl), by simp only [side]; linarith⟩
        · have := mul_pos xz (by linarith : 0 < p.y - hi.y)
          exact ⟨_, (mem _).2 (.inr (.inr (.inr (.inr (.inr (.inr (.inr (.inr (.inr (.inr (.inl rfl))))))))))),
            by simp only [side]; linarith⟩
      · have := mul_pos xz (by linarith : 0 < lo.y - p.y)
        exact ⟨_, (mem _).2 (.inr (.inr (.inr (.inr (.inr (.inr (.inr (.inr (.inl rfl))))))))),
          by simp only [side]; linarith⟩
    · have := mul_pos yz (by linarith : 0 < p.x - hi.x)
      exact ⟨_, (mem _).2 (.inr (.inr (.inr (.inr (.inr (.inr (.inl rfl))))))), by simp only [side]; linarith⟩
  · have := mul_pos yz (by linarith : 0 < lo.x - p.x)
    exact ⟨_, (mem _).2 (.inr (.inr (.inr (.inr (.inl rfl))))), by simp only [side]; linarith⟩

theorem box_inner {lo hi : Vec3} (h1 : lo.x < hi.x) (h2 : lo.y < hi.y) (h3 : lo.z < hi.z)
    {ts : List (Vec3 × Vec3 × Vec3)}
    (hs : soup (Box.new lo hi).mesh.points (Box.new lo hi).mesh.tris = some ts)
    {p : Vec3} (q1 : lo.x < p.x) (q2 : p.x < hi.x) (q3 : lo.y < p.y) (q4 : p.y < hi.y) (q5 : lo.z < p.z)
    (q6 : p.z < hi.z) : ∀ t ∈ ts, side t p < 0 := by
  have ets := hs
  rw [box_soup] at ets
  have ets := (Option.some.inj ets).symm
  have hx : 0 < hi.x - lo.x := by linarith
  have hy : 0 < hi.y - lo.y := by linarith
  have hz : 0 < hi.z - lo.z := by linarith
  have xy := mul_pos hx hy
  have yz := mul_pos hy hz
  have xz := mul_pos hx hz
  have m1 := mul_pos xy (sub_pos.2 q5)
  have m2 := mul_pos xy (sub_pos.2 q6)
  have m3 := mul_pos yz (sub_pos.2 q1)
  have m4 := mul_pos yz (sub_pos.2 q2)
  have m5 := mul_pos xz (sub_pos.2 q3)
  have m6 := mul_pos xz (sub_pos.2 q4)
  intro t ht
  rw [ets] at ht
  simp only [List.mem_cons, List.not_mem_nil, or_false] at ht
  rcases ht with rfl | rfl | rfl | rfl | rfl | rfl | rfl | rfl | rfl | rfl | rfl | rfl <;>
    simp only [side] <;> linarith

theorem box_small (lo hi : Vec3) : (Box.new lo hi).mesh.points.length ≤ 2 ^ 32 := by
  rw [show (Box.new lo hi).mesh.points = corners8 lo hi from (generateMesh_points ⟨lo, hi, Mesh.new⟩).2.2]
  simp [corners8]

theorem box_corner_in {lo hi : Vec3} (h1 : lo.x < hi.x) (h2 : lo.y < hi.y) (h3 : lo.z < hi.z) :
    ∀ v ∈ (Box.new lo hi).mesh.points, InBox lo hi v := by
  rw [show (Box.new lo hi).mesh.points = corners8 lo hi from (generateMesh_points ⟨lo, hi, Mesh.new⟩).2.2]
  intro v hv
  simp only [corners8, List.mem_cons, List.not_mem_nil, or_false] at hv
  rcases hv with rfl | rfl | rfl | rfl | rfl | rfl | rfl | rfl <;>
    exact ⟨by simp [h1.le], by simp [h1.le], by simp [h2.le], by simp [h2.le], by simp [h3.le],
      by simp [h3.le]⟩

end Geo
