import Verif.Lemmas.HeightMapCrossing
import Verif.Lemmas.Sphere
import Verif.Lemmas.Contact

/-!
# The crossing number of a probe with the mesh of a height map, and the columns
-/

namespace Geo.HeightMap

open Spec

variable {grid : List (List ℝ)} {m n : ℕ}

/-! ## Sums over the faces -/

theorem ty_le {res : ℝ} {p : Vec3} (hr : 0 < res) (hy : 0 < p.y) (j : ℕ) : ty res p j ≤ 1 := by
  unfold ty
  have := div_nonneg (mul_nonneg hr.le (Nat.cast_nonneg (α := ℝ) j)) hy.le
  linarith

theorem tz_zero (p : Vec3) : tz p 0 = 1 := by simp [tz]

theorem hitX_zero {res d : ℝ} {p : Vec3} (hr : 0 < res) (hy : 0 < p.y) (i j : ℕ) : hitX res d p i j 0 = 0 := by
  refine ind_neg fun ⟨_, _, k3, k4⟩ => ?_
  have := ty_le (p := p) hr hy j
  rw [tz_zero] at k4
  linarith

theorem hitY_zero {res d : ℝ} {p : Vec3} (hr : 0 < res) (hy : 0 < p.y) (i j : ℕ) : hitY res d p i j 0 = 0 := by
  refine ind_neg fun ⟨_, _, _, k4⟩ => ?_
  have := ty_le (p := p) hr hy j
  rw [tz_zero] at k4
  linarith

theorem hitZ_zero {res d : ℝ} {p : Vec3} (hr : 0 < res) (hy : 0 < p.y) (i j : ℕ) : hitZ res d p i j 0 = 0 := by
  refine ind_neg fun ⟨_, _, _, _, k4⟩ => ?_
  have := ty_le (p := p) hr hy j
  rw [tz_zero] at k4
  linarith

/-- Steps between neighbours, ordered by the cells they belong to. -/
theorem sum_steps (A : ℕ → ℝ → ℝ) (H HL : ℕ → ℝ) (h : ∀ x, HL x = if x = 0 then 0 else H (x - 1)) (hA : ∀ x, A x 0 = 0)
    (m : ℕ) (hm : H m = 0) :
    ∑ x ∈ Finset.range (m + 1), (A x (HL x) - A x (H x)) = ∑ x ∈ Finset.range m, (A (x + 1) (H x) - A x (H x)) := by
  rw [Finset.sum_sub_distrib, Finset.sum_range_succ', Finset.sum_range_succ (fun x => A x (H x)), h 0, hm, if_pos rfl, hA, hA,
    add_zero, add_zero, Finset.sum_sub_distrib]
  congr 1
  refine Finset.sum_congr rfl fun x _ => ?_
  rw [h (x + 1), if_neg (by omega), Nat.add_sub_cancel]

variable {res d : ℝ} {p : Vec3}

/-- The probe meets no edge of the faces and starts on none of them. (Device of the proofs.) -/
def Misses (res d : ℝ) (p : Vec3) (W : List Face) : Prop :=
  ∀ f ∈ W, (∀ t ∈ f.tris res, MissesEdges p ⟨d, 0, 0⟩ t) ∧ ∀ t ∈ f.tris res, ¬ InTri t p

open Classical in
theorem hits_wallsX (hg : Rectangular grid m n) (hr : 0 < res) (hd : p.x < d) (hy : 0 < p.y) (hz : 0 < p.z) {W : List Face}
    (h1 : ∀ f ∈ W, WallXIn grid m n f) (h2 : WallsX grid W) (hW : Misses res d p W) :
    (W.map fun f => (faceHits res p ⟨d, 0, 0⟩ f : ℝ)).sum = ∑ x ∈ Finset.range m, ∑ y ∈ Finset.range n,
      (hitX res d p (x + 1) y (height grid x y) - hitX res d p x y (height grid x y)) := by
  obtain ⟨w1, w2, w3⟩ := h2
  let g : ℕ × ℕ → ℝ := fun c => hitX res d p c.1 c.2 (heightLeft grid c.1 c.2) - hitX res d p c.1 c.2 (height grid c.1 c.2)
  have e1 : (W.map fun f => (faceHits res p ⟨d, 0, 0⟩ f : ℝ)) = W.map fun f => ∑ c ∈ Finset.range (m + 1) ×ˢ Finset.range n,
      if f.AtX c.1 c.2 then g c else 0 := by
    refine List.map_congr_left fun f hf => ?_
    have hin := h1 f hf
    have hw := w1 f hf
    have hM := hW f hf
    cases f with
    | top => exact hin.elim
    | wallY => exact hin.elim
    | wallX x y0 y1 h h' =>
      obtain ⟨i1, i2, i3, -⟩ := hin
      have e : ∀ c : ℕ × ℕ, ((Face.wallX x y0 y1 h h').AtX c.1 c.2) ↔ (x ≤ c.1 ∧ c.1 < x + 1 ∧ y0 ≤ c.2 ∧ c.2 < y1) := by
        intro c; simp only [Face.AtX]; omega
      have hne : h ≠ h' := by
        have := hw x y0 ⟨rfl, le_rfl, i2⟩
        simp only [Face.wallHeights, Prod.mk.injEq] at this
        rw [this.1.1, this.1.2]; exact this.2
      simp only [e]
      rw [sum_rect (m + 1) n x (x + 1) y0 y1 (by omega) i3, Nat.Ico_succ_singleton, Finset.sum_singleton,
        hits_wallX hr hd hy hz i2 hne hM.1 hM.2]
      refine Finset.sum_congr rfl fun y hy => ?_
      rw [Finset.mem_Ico] at hy
      have := (hw x y ⟨rfl, hy.1, hy.2⟩).1
      simp only [Face.wallHeights, Prod.mk.injEq] at this
      simp only [g, this.1, this.2]
  rw [e1, sum_cells (α := Face) (fun f c => f.AtX c.1 c.2) _ g W]
  have e2 : ∀ c ∈ Finset.range (m + 1) ×ˢ Finset.range n,
      ((W.countP fun f => decide (f.AtX c.1 c.2) : ℕ) : ℝ) * g c = g c := by
    intro c _
    by_cases hc : height grid c.1 c.2 = heightLeft grid c.1 c.2
    · simp [g, hc]
    · rw [count_one (P := fun (f : Face) c => f.AtX c.1 c.2) (c := c) (w3.imp fun h => h c.1 c.2) (w2 _ _ hc)]
      simp
  rw [Finset.sum_congr rfl e2, Finset.sum_product_right, Finset.sum_comm (s := Finset.range m)]
  refine Finset.sum_congr rfl fun y _ => ?_
  exact sum_steps (fun x h => hitX res d p x y h) (fun x => height grid x y) (fun x => heightLeft grid x y) (fun x => rfl)
    (fun x => hitX_zero hr hy x y) m (height_out hg (.inl le_rfl))

open Classical in
theorem hits_wallsY (hg : Rectangular grid m n) (hr : 0 < res) (hd : p.x < d) (hy : 0 < p.y) (hz : 0 < p.z) {W : List Face}
    (h1 : ∀ f ∈ W, WallYIn grid m n f) (h2 : WallsY grid W) (hW : Misses res d p W) :
    (W.map fun f => (faceHits res p ⟨d, 0, 0⟩ f : ℝ)).sum = ∑ x ∈ Finset.range m, ∑ y ∈ Finset.range n,
      (hitY res d p x y (height grid x y) - hitY res d p x (y + 1) (height grid x y)) := by
  obtain ⟨w1, w2, w3⟩ := h2
  let g : ℕ × ℕ → ℝ := fun c => hitY res d p c.1 c.2 (height grid c.1 c.2) - hitY res d p c.1 c.2 (heightBelow grid c.1 c.2)
  have e1 : (W.map fun f => (faceHits res p ⟨d, 0, 0⟩ f : ℝ)) = W.map fun f => ∑ c ∈ Finset.range m ×ˢ Finset.range (n + 1),
      if f.AtY c.1 c.2 then g c else 0 := by
    refine List.map_congr_left fun f hf => ?_
    have hin := h1 f hf
    have hw := w1 f hf
    have hM := hW f hf
    cases f with
    | top => exact hin.elim
    | wallX => exact hin.elim
    | wallY y x0 x1 h h' =>
      obtain ⟨i1, i2, i3, -⟩ := hin
      have e : ∀ c : ℕ × ℕ, ((Face.wallY y x0 x1 h h').AtY c.1 c.2) ↔ (x0 ≤ c.1 ∧ c.1 < x1 ∧ y ≤ c.2 ∧ c.2 < y + 1) := by
        intro c; simp only [Face.AtY]; omega
      have hne : h ≠ h' := by
        have := hw x0 y ⟨rfl, le_rfl, i2⟩
        simp only [Face.wallHeights, Prod.mk.injEq] at this
        rw [this.1.1, this.1.2]; exact this.2
      simp only [e]
      rw [sum_rect m (n + 1) x0 x1 y (y + 1) i3 (by omega), Nat.Ico_succ_singleton, hits_wallY hr hd hy hz i2 hne hM.1 hM.2]
      refine Finset.sum_congr rfl fun x hx => ?_
      rw [Finset.mem_Ico] at hx
      have := (hw x y ⟨rfl, hx.1, hx.2⟩).1
      simp only [Face.wallHeights, Prod.mk.injEq] at this
      rw [Finset.sum_singleton]
      simp only [g, this.1, this.2]
  rw [e1, sum_cells (α := Face) (fun f c => f.AtY c.1 c.2) _ g W]
  have e2 : ∀ c ∈ Finset.range m ×ˢ Finset.range (n + 1),
      ((W.countP fun f => decide (f.AtY c.1 c.2) : ℕ) : ℝ) * g c = g c := by
    intro c _
    by_cases hc : height grid c.1 c.2 = heightBelow grid c.1 c.2
    · simp [g, hc]
    · rw [count_one (P := fun (f : Face) c => f.AtY c.1 c.2) (c := c) (w3.imp fun h => h c.1 c.2) (w2 _ _ hc)]
      simp
  rw [Finset.sum_congr rfl e2, Finset.sum_product]
  refine Finset.sum_congr rfl fun x _ => ?_
  have := sum_steps (fun y h => -hitY res d p x y h) (fun y => height grid x y) (fun y => heightBelow grid x y) (fun y => rfl)
    (fun y => by rw [hitY_zero hr hy x y, neg_zero]) n (height_out hg (.inr le_rfl))
  rw [Finset.sum_congr rfl (g := fun y => -hitY res d p x y (heightBelow grid x y) - -hitY res d p x y (height grid x y))
    fun y _ => by ring, this]
  exact Finset.sum_congr rfl fun y _ => by ring

open Classical in
theorem hits_tops (hs : Separated grid) (hr : 0 < res) (hd : p.x < d) (hy : 0 < p.y) (hz : 0 < p.z) {F : List Face}
    (h1 : ∀ f ∈ F, GoodTop grid m n f) (hW : Misses res d p F) :
    (F.map fun f => (faceHits res p ⟨d, 0, 0⟩ f : ℝ)).sum = ∑ x ∈ Finset.range m, ∑ y ∈ Finset.range n,
      -((F.countP fun f => decide (f.Covers x y) : ℕ) * hitZ res d p x y (height grid x y)) := by
  let g : ℕ × ℕ → ℝ := fun c => -hitZ res d p c.1 c.2 (height grid c.1 c.2)
  have e1 : (F.map fun f => (faceHits res p ⟨d, 0, 0⟩ f : ℝ)) = F.map fun f => ∑ c ∈ Finset.range m ×ˢ Finset.range n,
      if f.Covers c.1 c.2 then g c else 0 := by
    refine List.map_congr_left fun f hf => ?_
    have hin := h1 f hf
    have hM := hW f hf
    cases f with
    | wallX => exact hin.elim
    | wallY => exact hin.elim
    | top a b c d h =>
      obtain ⟨i1, i2, i3, i4, i5, i6, -⟩ := good_top hs hin
      have e : ∀ e : ℕ × ℕ, ((Face.top a b c d h).Covers e.1 e.2) ↔ (a ≤ e.1 ∧ e.1 < c ∧ b ≤ e.2 ∧ e.2 < d) := fun e => Iff.rfl
      simp only [e]
      rw [sum_rect m n a c b d i2 i4, hits_top hr hd hy hz i1 i3 i5.le hM.1 hM.2]
      refine Finset.sum_congr rfl fun x hx => Finset.sum_congr rfl fun y hy => ?_
      rw [Finset.mem_Ico] at hx hy
      simp only [g, i6 x y hx.1 hx.2 hy.1 hy.2]
  rw [e1, sum_cells (α := Face) (fun f c => f.Covers c.1 c.2) _ g F, Finset.sum_product]
  refine Finset.sum_congr rfl fun x _ => Finset.sum_congr rfl fun y _ => ?_
  simp only [g]
  ring

/-- The column of the cell, closed towards smaller x and larger y. (Device of the proofs.) -/
def InColumn (grid : List (List ℝ)) (res : ℝ) (p : Vec3) (x y : ℕ) : Prop :=
  (res * x ≤ p.x ∧ p.x < res * (x + 1 : ℕ)) ∧ (res * y < p.y ∧ p.y ≤ res * (y + 1 : ℕ)) ∧ p.z ≤ height grid x y

theorem sum_crossing (res : ℝ) (p q : Vec3) (L : List Face) :
    ((((L.flatMap (Face.tris res)).map (crossing p q)).sum : ℤ) : ℝ) = (L.map fun f => (faceHits res p q f : ℝ)).sum := by
  induction L with
  | nil => simp
  | cons f L ih =>
    rw [List.flatMap_cons, List.map_append, List.sum_append, Int.cast_add, ih, List.map_cons, List.sum_cons]; rfl

open Classical in
/-- The crossing number: the columns the probe starts in, less the entries through cells that are covered twice. -/
theorem crossing_columns (hg : Rectangular grid m n) (hs : Separated grid) (hr : 0 < res) (hd : p.x < d) (hy : 0 < p.y)
    (hz : 0 < p.z) {F WX WY : List Face} (h1 : ∀ f ∈ F, GoodTop grid m n f) (h2 : ∀ f ∈ WX, WallXIn grid m n f)
    (h3 : ∀ f ∈ WY, WallYIn grid m n f) (w1 : WallsX grid WX) (w2 : WallsY grid WY) (hW : Misses res d p (F ++ WX ++ WY)) :
    (((((F ++ WX ++ WY).flatMap (Face.tris res)).map (crossing p ⟨d, 0, 0⟩)).sum : ℤ) : ℝ) =
      ∑ x ∈ Finset.range m, ∑ y ∈ Finset.range n, (ind (InColumn grid res p x y) -
        ((F.countP fun f => decide (f.Covers x y) : ℕ) - 1) * hitZ res d p x y (height grid x y)) := by
  rw [sum_crossing, List.map_append, List.map_append, List.sum_append, List.sum_append,
    hits_tops hs hr hd hy hz h1 fun f hf => hW f (by simp [hf]),
    hits_wallsX hg hr hd hy hz h2 w1 fun f hf => hW f (by simp [hf]),
    hits_wallsY hg hr hd hy hz h3 w2 fun f hf => hW f (by simp [hf]), ← Finset.sum_add_distrib, ← Finset.sum_add_distrib]
  refine Finset.sum_congr rfl fun x _ => ?_
  rw [← Finset.sum_add_distrib, ← Finset.sum_add_distrib]
  refine Finset.sum_congr rfl fun y _ => ?_
  have := column_hits (res := res) hr hd hy hz x y (height grid x y)
  unfold InColumn
  rw [← this]
  ring

/-- The sum over the cells is 1 if the point is in one of the columns, else 0. -/
theorem sum_columns (hr : 0 < res) (p : Vec3) (grid : List (List ℝ)) (m n : ℕ) :
    ∑ x ∈ Finset.range m, ∑ y ∈ Finset.range n, ind (InColumn grid res p x y) =
      ind (∃ x y, x < m ∧ y < n ∧ InColumn grid res p x y) := by
  by_cases h : ∃ x y, x < m ∧ y < n ∧ InColumn grid res p x y
  · rw [ind_pos h]
    obtain ⟨x, y, hx, hy, h⟩ := h
    have uniq : ∀ x' y', InColumn grid res p x' y' → x' = x ∧ y' = y := by
      intro x' y' h'
      obtain ⟨⟨a1, a2⟩, ⟨a3, a4⟩, -⟩ := h
      obtain ⟨⟨b1, b2⟩, ⟨b3, b4⟩, -⟩ := h'
      have k1 : (x:ℝ) < (x' + 1 : ℕ) := lt_of_mul_lt_mul_left (lt_of_le_of_lt a1 b2) hr.le
      have k2 : (x':ℝ) < (x + 1 : ℕ) := lt_of_mul_lt_mul_left (lt_of_le_of_lt b1 a2) hr.le
      have k3 : (y:ℝ) < (y' + 1 : ℕ) := lt_of_mul_lt_mul_left (lt_of_lt_of_le a3 b4) hr.le
      have k4 : (y':ℝ) < (y + 1 : ℕ) := lt_of_mul_lt_mul_left (lt_of_lt_of_le b3 a4) hr.le
      rw [Nat.cast_lt] at k1 k2 k3 k4
      omega
    rw [Finset.sum_eq_single x, Finset.sum_eq_single y, ind_pos h]
    · intro y' _ hne
      exact ind_neg fun k => hne (uniq _ _ k).2
    · intro k; exact absurd (Finset.mem_range.2 hy) k
    · intro x' _ hne
      exact Finset.sum_eq_zero fun y' _ => ind_neg fun k => hne (uniq _ _ k).1
    · intro k; exact absurd (Finset.mem_range.2 hx) k
  · rw [ind_neg h]
    refine Finset.sum_eq_zero fun x hx => Finset.sum_eq_zero fun y hy => ind_neg fun k => h ⟨x, y, ?_, ?_, k⟩
    · exact Finset.mem_range.1 hx
    · exact Finset.mem_range.1 hy

/-! ## Probes that stay beside or below the columns -/

/-- A segment in the lowest plane over a triangle: in the plane of the triangle, or on an edge. -/
theorem low_y {t : Vec3 × Vec3 × Vec3} {p q : Vec3} (hv : ∀ v ∈ [t.1, t.2.1, t.2.2], 0 ≤ v.y) (hp : p.y = 0) (hq : q.y = 0)
    (ht : ∃ e ∈ rim t, vol4 p q e.1 e.2 ≠ 0) (hg : MissesEdges p q t) {s : ℝ} (h0 : 0 ≤ s) (h1 : s ≤ 1) :
    ¬ InTri t (lerp p q s) := by
  obtain ⟨A, B, C⟩ := t
  rintro ⟨a, b, c, ha, hb, hc, hs, e⟩
  have hin : ¬ (a = 0 ∨ b = 0 ∨ c = 0) := fun k => hg s h0 h1 ⟨a, b, c, ha, hb, hc, hs, k, e⟩
  simp only [List.mem_cons, List.not_mem_nil, or_false, forall_eq_or_imp, forall_eq, not_or] at hv hin e
  obtain ⟨vA, vB, vC⟩ := hv
  have e2 := congrArg Vec3.y e
  simp only [lerp] at e2
  rw [hp, hq] at e2
  have z1 := mul_nonneg ha vA
  have z2 := mul_nonneg hb vB
  have z3 := mul_nonneg hc vC
  have zA : A.y = 0 := (mul_eq_zero.1 (show a * A.y = 0 by linarith)).resolve_left hin.1
  have zB : B.y = 0 := (mul_eq_zero.1 (show b * B.y = 0 by linarith)).resolve_left hin.2.1
  have zC : C.y = 0 := (mul_eq_zero.1 (show c * C.y = 0 by linarith)).resolve_left hin.2.2
  have pl : ∀ u v : Vec3, u.y = 0 → v.y = 0 → vol4 p q u v = 0 := by
    intro u v hu hv
    rw [vol4_eq, hp, hq, hu, hv]; ring
  obtain ⟨e, he, hne⟩ := ht
  simp only [rim, List.mem_cons, List.not_mem_nil, or_false] at he
  rcases he with rfl | rfl | rfl
  · exact hne (pl _ _ zA zB)
  · exact hne (pl _ _ zB zC)
  · exact hne (pl _ _ zC zA)

/-- The same in z. -/
theorem low_z {t : Vec3 × Vec3 × Vec3} {p q : Vec3} (hv : ∀ v ∈ [t.1, t.2.1, t.2.2], 0 ≤ v.z) (hp : p.z = 0) (hq : q.z = 0)
    (ht : ∃ e ∈ rim t, vol4 p q e.1 e.2 ≠ 0) (hg : MissesEdges p q t) {s : ℝ} (h0 : 0 ≤ s) (h1 : s ≤ 1) :
    ¬ InTri t (lerp p q s) := by
  obtain ⟨A, B, C⟩ := t
  rintro ⟨a, b, c, ha, hb, hc, hs, e⟩
  have hin : ¬ (a = 0 ∨ b = 0 ∨ c = 0) := fun k => hg s h0 h1 ⟨a, b, c, ha, hb, hc, hs, k, e⟩
  simp only [List.mem_cons, List.not_mem_nil, or_false, forall_eq_or_imp, forall_eq, not_or] at hv hin e
  obtain ⟨vA, vB, vC⟩ := hv
  have e2 := congrArg Vec3.z e
  simp only [lerp] at e2
  rw [hp, hq] at e2
  have z1 := mul_nonneg ha vA
  have z2 := mul_nonneg hb vB
  have z3 := mul_nonneg hc vC
  have zA : A.z = 0 := (mul_eq_zero.1 (show a * A.z = 0 by linarith)).resolve_left hin.1
  have zB : B.z = 0 := (mul_eq_zero.1 (show b * B.z = 0 by linarith)).resolve_left hin.2.1
  have zC : C.z = 0 := (mul_eq_zero.1 (show c * C.z = 0 by linarith)).resolve_left hin.2.2
  have pl : ∀ u v : Vec3, u.z = 0 → v.z = 0 → vol4 p q u v = 0 := by
    intro u v hu hv
    rw [vol4_eq, hp, hq, hu, hv]; ring
  obtain ⟨e, he, hne⟩ := ht
  simp only [rim, List.mem_cons, List.not_mem_nil, or_false] at he
  rcases he with rfl | rfl | rfl
  · exact hne (pl _ _ zA zB)
  · exact hne (pl _ _ zB zC)
  · exact hne (pl _ _ zC zA)

theorem inTri_nonneg {t : Vec3 × Vec3 × Vec3} {x : Vec3} (hv : ∀ v ∈ [t.1, t.2.1, t.2.2], 0 ≤ v.y ∧ 0 ≤ v.z) (h : InTri t x) :
    0 ≤ x.y ∧ 0 ≤ x.z := by
  obtain ⟨a, b, c, ha, hb, hc, -, rfl⟩ := h
  have h1 := hv t.1 (by simp)
  have h2 := hv t.2.1 (by simp)
  have h3 := hv t.2.2 (by simp)
  have := mul_nonneg ha h1.1
  have := mul_nonneg hb h2.1
  have := mul_nonneg hc h3.1
  have := mul_nonneg ha h1.2
  have := mul_nonneg hb h2.2
  have := mul_nonneg hc h3.2
  constructor <;> dsimp only <;> linarith

/-- A probe from a point that is not in front of and above the axes meets nothing. -/
theorem crossing_zero {t : Vec3 × Vec3 × Vec3} (hv : ∀ v ∈ [t.1, t.2.1, t.2.2], 0 ≤ v.y ∧ 0 ≤ v.z)
    (ht : ∃ e ∈ rim t, vol4 p ⟨d, 0, 0⟩ e.1 e.2 ≠ 0) (hg : MissesEdges p ⟨d, 0, 0⟩ t) (hq : ¬ InTri t ⟨d, 0, 0⟩) (h : p.y ≤ 0 ∨ p.z ≤ 0) :
    crossing p ⟨d, 0, 0⟩ t = 0 := by
  refine if_neg ?_
  rintro ⟨s, h0, h1, hi⟩
  have hn := inTri_nonneg hv hi
  simp only [lerp] at hn
  have hend : s = 1 → False := by
    rintro rfl
    refine hq ?_
    have e : lerp p ⟨d, 0, 0⟩ 1 = ⟨d, 0, 0⟩ := by simp [lerp]
    rwa [e] at hi
  have key : ∀ c : ℝ, c < 0 → 0 ≤ c + s * (0 - c) → s = 1 := by
    intro c hc k
    by_contra hs
    have : s < 1 := lt_of_le_of_ne h1 hs
    nlinarith
  rcases h with h | h
  · rcases h.lt_or_eq with h | h
    · exact hend (key _ h hn.1)
    · exact low_y (fun v k => (hv v k).1) h rfl ht hg h0 h1 hi
  · rcases h.lt_or_eq with h | h
    · exact hend (key _ h hn.2)
    · exact low_z (fun v k => (hv v k).2) h rfl ht hg h0 h1 hi

/-! ## Closed columns -/

/-- A point of a rectangle is in one of its triangles. -/
theorem para_inTri {C u v : Vec3} {a b : ℝ} (ha : 0 ≤ a) (ha1 : a ≤ 1) (hb : 0 ≤ b) (hb1 : b ≤ 1) :
    InTri (para C u v 1 0, para C u v 0 1, C) (para C u v a b) ∨
      InTri (para C u v 0 1, para C u v 1 0, para C u v 1 1) (para C u v a b) := by
  rcases le_total (a + b) 1 with h | h
  · left
    refine ⟨a, b, 1 - a - b, ha, hb, by linarith, by ring, ?_⟩
    simp only [para]; ext <;> simp only <;> ring
  · right
    refine ⟨1 - a, 1 - b, a + b - 1, by linarith, by linarith, by linarith, by ring, ?_⟩
    simp only [para]; ext <;> simp only <;> ring

/-- Weight of a number between two others. -/
theorem weight {u v z : ℝ} (h : (u ≤ z ∧ z ≤ v) ∨ (v ≤ z ∧ z ≤ u)) (hne : u ≠ v) : ∃ a, 0 ≤ a ∧ a ≤ 1 ∧ z = u + a * (v - u) := by
  have hne' : v - u ≠ 0 := sub_ne_zero.2 hne.symm
  refine ⟨(z - u) / (v - u), ?_, ?_, by field_simp; ring⟩
  · rcases h with h | h
    · exact div_nonneg (by linarith) (by linarith)
    · exact div_nonneg_of_nonpos (by linarith) (by linarith)
  · rcases h with h | h
    · have : 0 < v - u := lt_of_le_of_ne (by linarith) hne'.symm
      rw [div_le_one this]; linarith
    · have : v - u < 0 := lt_of_le_of_ne (by linarith) hne'
      rw [div_le_one_of_neg this]; linarith

theorem on_wallX (hr : 0 < res) {x y0 y1 y : ℕ} {h h2 : ℝ} (h0 : y0 ≤ y) (h1 : y < y1) (hne : h ≠ h2) (ex : p.x = res * x)
    (ey : res * y ≤ p.y) (ey' : p.y ≤ res * (y + 1 : ℕ)) (ez : (h ≤ p.z ∧ p.z ≤ h2) ∨ (h2 ≤ p.z ∧ p.z ≤ h)) :
    ∃ t ∈ (Face.wallX x y0 y1 h h2).tris res, InTri t p := by
  have c0 : res * y0 ≤ res * y := mul_le_mul_of_nonneg_left (by exact_mod_cast h0) hr.le
  have c1 : res * (y + 1 : ℕ) ≤ res * y1 := mul_le_mul_of_nonneg_left (by exact_mod_cast h1) hr.le
  have c01 : res * (y0:ℝ) ≠ res * y1 := by
    have : (y0:ℝ) < y1 := by exact_mod_cast (lt_of_le_of_lt h0 h1)
    exact (mul_lt_mul_of_pos_left this hr).ne
  obtain ⟨a, a0, a1, ea⟩ := weight (u := res * y0) (v := res * y1) (z := p.y) (.inl ⟨by linarith, by linarith⟩) c01
  obtain ⟨b, b0, b1, eb⟩ := weight ez hne
  have e : p = para ⟨res * x, res * y0, h⟩ ⟨0, res * y1 - res * y0, 0⟩ ⟨0, 0, h2 - h⟩ a b := by
    simp only [para]; ext <;> simp only
    · rw [ex]; ring
    · rw [ea]; ring
    · rw [eb]; ring
  have := para_inTri (C := ⟨res * x, res * y0, h⟩) (u := ⟨0, res * y1 - res * y0, 0⟩) (v := ⟨0, 0, h2 - h⟩) a0 a1 b0 b1
  rw [← e] at this
  simp only [Face.tris, List.mem_cons, List.not_mem_nil, or_false, exists_eq_or_imp, exists_eq_left]
  simpa [para] using this

theorem on_wallY (hr : 0 < res) {y x0 x1 x : ℕ} {h h2 : ℝ} (h0 : x0 ≤ x) (h1 : x < x1) (hne : h ≠ h2) (ey : p.y = res * y)
    (ex : res * x ≤ p.x) (ex' : p.x ≤ res * (x + 1 : ℕ)) (ez : (h ≤ p.z ∧ p.z ≤ h2) ∨ (h2 ≤ p.z ∧ p.z ≤ h)) :
    ∃ t ∈ (Face.wallY y x0 x1 h h2).tris res, InTri t p := by
  have c0 : res * x0 ≤ res * x := mul_le_mul_of_nonneg_left (by exact_mod_cast h0) hr.le
  have c1 : res * (x + 1 : ℕ) ≤ res * x1 := mul_le_mul_of_nonneg_left (by exact_mod_cast h1) hr.le
  have c01 : res * (x0:ℝ) ≠ res * x1 := by
    have : (x0:ℝ) < x1 := by exact_mod_cast (lt_of_le_of_lt h0 h1)
    exact (mul_lt_mul_of_pos_left this hr).ne
  obtain ⟨a, a0, a1, ea⟩ := weight (u := res * x0) (v := res * x1) (z := p.x) (.inl ⟨by linarith, by linarith⟩) c01
  obtain ⟨b, b0, b1, eb⟩ := weight ez hne
  have e : p = para ⟨res * x0, res * y, h⟩ ⟨0, 0, h2 - h⟩ ⟨res * x1 - res * x0, 0, 0⟩ b a := by
    simp only [para]; ext <;> simp only
    · rw [ea]; ring
    · rw [ey]; ring
    · rw [eb]; ring
  have := para_inTri (C := ⟨res * x0, res * y, h⟩) (u := ⟨0, 0, h2 - h⟩) (v := ⟨res * x1 - res * x0, 0, 0⟩) b0 b1 a0 a1
  rw [← e] at this
  simp only [Face.tris, List.mem_cons, List.not_mem_nil, or_false, exists_eq_or_imp, exists_eq_left]
  simpa [para] using this

/-- A point above the ground in a closed column and on no wall is in a half-open one. -/
theorem column_open (hg : Rectangular grid m n) (hr : 0 < res) {WX WY : List Face} (h2 : ∀ f ∈ WX, WallXIn grid m n f)
    (h3 : ∀ f ∈ WY, WallYIn grid m n f) (w1 : WallsX grid WX) (w2 : WallsY grid WY)
    (hoff : ∀ f ∈ WX ++ WY, ∀ t ∈ f.tris res, ¬ InTri t p) (hz : 0 < p.z) {c : ℕ × ℕ}
    (hc : InBox (columnLo res c) (columnHi res grid c) p) : ∃ x y, x < m ∧ y < n ∧ InColumn grid res p x y := by
  obtain ⟨c1, c2, c3, c4, c5, c6⟩ : (c.1 * res ≤ p.x ∧ p.x ≤ (c.1 + 1) * res ∧ c.2 * res ≤ p.y ∧ p.y ≤ (c.2 + 1) * res ∧
      0 ≤ p.z ∧ p.z ≤ height grid c.1 c.2) := by
    simp only [InBox, columnLo, columnHi] at hc; tauto
  obtain ⟨x, y⟩ := c
  dsimp only at *
  have cast : ∀ k : ℕ, ((k + 1 : ℕ) : ℝ) = k + 1 := fun k => by push_cast; ring
  -- towards larger x
  obtain ⟨x, d1, d2, d6⟩ : ∃ x : ℕ, res * x ≤ p.x ∧ p.x < res * (x + 1 : ℕ) ∧ p.z ≤ height grid x y := by
    rcases c2.lt_or_eq with h | h
    · exact ⟨x, by linarith, by rw [cast]; linarith, c6⟩
    · refine ⟨x + 1, by rw [cast]; linarith, by rw [cast, cast]; nlinarith, ?_⟩
      by_contra k
      rw [not_le] at k
      have e : heightLeft grid (x + 1) y = height grid x y := by simp [heightLeft]
      have hne : height grid (x + 1) y ≠ heightLeft grid (x + 1) y := by rw [e]; linarith
      obtain ⟨f, hf, hat⟩ := w1.2.1 _ _ hne
      have hh := (w1.1 f hf _ _ hat).1
      have hin := h2 f hf
      cases f with
      | top => exact hin
      | wallY => exact hin
      | wallX x' y0 y1 a b =>
        obtain ⟨rfl, a1, a2⟩ := hat
        simp only [Face.wallHeights, Prod.mk.injEq] at hh
        obtain ⟨t, ht, hi⟩ := on_wallX (p := p) hr a1 a2 (h := a) (h2 := b) (by rw [hh.1, hh.2]; exact hne)
          (x := x + 1) (by rw [cast]; linarith) (by linarith) (by rw [cast]; linarith)
          (.inl ⟨by rw [hh.1]; exact k.le, by rw [hh.2, e]; exact c6⟩)
        exact hoff _ (by simp [hf]) t ht hi
  have hxm : x < m := by
    by_contra k
    rw [height_out hg (.inl (by omega))] at d6
    linarith
  -- towards smaller y
  rcases c3.lt_or_eq with h | h
  · refine ⟨x, y, hxm, ?_, ⟨d1, d2⟩, ⟨by linarith, by rw [cast]; linarith⟩, d6⟩
    by_contra k
    rw [height_out hg (.inr (by omega))] at d6
    linarith
  · have onY : heightBelow grid x y < p.z → False := by
      intro k
      have hne : height grid x y ≠ heightBelow grid x y := by linarith
      obtain ⟨f, hf, hat⟩ := w2.2.1 _ _ hne
      have hh := (w2.1 f hf _ _ hat).1
      have hin := h3 f hf
      cases f with
      | top => exact hin
      | wallX => exact hin
      | wallY y' x0 x1 a b =>
        obtain ⟨rfl, a1, a2⟩ := hat
        simp only [Face.wallHeights, Prod.mk.injEq] at hh
        obtain ⟨t, ht, hi⟩ := on_wallY (p := p) hr a1 a2 (h := a) (h2 := b) (by rw [hh.1, hh.2]; exact hne)
          (y := y') (by linarith) d1 d2.le
          (.inr ⟨by rw [hh.2]; exact k.le, by rw [hh.1]; exact d6⟩)
        exact hoff _ (by simp [hf]) t ht hi
    rcases Nat.eq_zero_or_pos y with rfl | hy
    · exact (onY (by simpa [heightBelow] using hz)).elim
    · obtain ⟨y, rfl⟩ : ∃ k, y = k + 1 := ⟨y - 1, by omega⟩
      have e : heightBelow grid x (y + 1) = height grid x y := by simp [heightBelow]
      rw [e] at onY
      have d7 : p.z ≤ height grid x y := not_lt.1 onY
      refine ⟨x, y, hxm, ?_, ⟨d1, d2⟩, ⟨by rw [cast] at h; nlinarith, by linarith⟩, d7⟩
      by_contra k
      rw [height_out hg (.inr (by omega))] at d7
      linarith

/-- A half-open column is part of the closed one. -/
theorem column_closed (hz : 0 ≤ p.z) {x y : ℕ} (h : InColumn grid res p x y) :
    InBox (columnLo res (x, y)) (columnHi res grid (x, y)) p := by
  obtain ⟨⟨h1, h2⟩, ⟨h3, h4⟩, h5⟩ := h
  push_cast at h2 h4
  simp only [InBox, columnLo, columnHi]
  refine ⟨?_, ?_, ?_, ?_, hz, h5⟩ <;> linarith

/-! ## Containment of clear probes -/

theorem contains_clear (s : Shape) (hm : Reachable s.mesh) {ts : List (Vec3 × Vec3 × Vec3)}
    (hs : soup s.mesh.points s.mesh.tris = some ts) {r : ℝ} (hr : IsRadius s.mesh.points r) {p : Vec3}
    (hp : Spec.dist p ⟨0, 0, 0⟩ ≤ r) (hc : OpenProbe ts r p) :
    s.contains p = .ok (decide ((ts.map (crossing p ⟨1.1 * r, 0, 0⟩)).sum = 1)) := by
  obtain ⟨hR, hR2, h0⟩ := radius_eq hm.coherent hr
  rw [Mesh.dist_origin] at hp
  have : p.length2 ≤ r ^ 2 := (Real.sqrt_le_left h0).1 hp
  unfold Shape.contains Shape.containsMesh
  rw [hR2, hR, if_neg (not_lt.2 this)]
  simp only
  rw [loop_generic hs]
  · simp
  intro t ht it st
  obtain ⟨A, B, C⟩ := t
  obtain ⟨hcl, hm⟩ := hc _ ht
  rw [step_contact it st hcl]
  congr 1
  unfold contact crossing
  by_cases hf : Spec.Meets p ⟨1.1 * r, 0, 0⟩ (A, B, C) False False False
  · rw [if_pos hf, if_pos]
    · rfl
    · obtain ⟨s, a, b, c, h0, h1, ha, hb, hc, hs, -, -, -, e⟩ := hf
      exact ⟨s, h0, h1, a, b, c, ha, hb, hc, hs, e⟩
  · have no : ∀ za zb zc : Prop, (za ∨ zb ∨ zc) → ¬ Spec.Meets p ⟨1.1 * r, 0, 0⟩ (A, B, C) za zb zc := by
      rintro za zb zc hz ⟨s, a, b, c, h0, h1, ha, hb, hc, hs, ia, ib, ic, e⟩
      exact hm s h0 h1 ⟨a, b, c, ha, hb, hc, hs, by rw [ia, ib, ic]; exact hz, e⟩
    rw [if_neg hf, if_neg (no _ _ _ (by simp)), if_neg (no _ _ _ (by simp)), if_neg (no _ _ _ (by simp)),
      if_neg (no _ _ _ (by simp)), if_neg (no _ _ _ (by simp)), if_neg (no _ _ _ (by simp)), if_neg]
    · simp [bump]
    · rintro ⟨s, h0, h1, a, b, c, ha, hb, hc, hs, e⟩
      by_cases hz : a = 0 ∨ b = 0 ∨ c = 0
      · exact hm s h0 h1 ⟨a, b, c, ha, hb, hc, hs, hz, e⟩
      · rw [not_or, not_or] at hz
        exact hf ⟨s, a, b, c, h0, h1, ha, hb, hc, hs, by simpa using hz.1, by simpa using hz.2.1, by simpa using hz.2.2, e⟩

/-! ## The mesh is built by calls -/

theorem addCorners_reachable {m : Mesh} (h : Reachable m) (a b c d : Vec3) : Reachable (addCorners m a b c d).1 := by
  unfold addCorners
  exact (((h.addPoint a).addPoint b).addPoint c).addPoint d

theorem foldlM_inv {α β : Type} {P : β → Prop} {f : β → α → Exec β} (hf : ∀ b a b', P b → f b a = .ok b' → P b') :
    ∀ (l : List α) (b b' : β), P b → l.foldlM f b = .ok b' → P b'
  | [], b, b', h, e => by
    simp only [List.foldlM_nil, pure, Except.pure, Except.ok.injEq] at e
    rw [← e]; exact h
  | a :: l, b, b', h, e => by
    rw [List.foldlM_cons, Exec.bind_ok] at e
    obtain ⟨b1, e1, e2⟩ := e
    exact foldlM_inv hf l b1 b' (hf b a b1 h e1) e2

theorem tops_reachable {mx my : ℕ} {M M' : Mesh} (h : Reachable M) (e : tops grid res mx my M = .ok M') : Reachable M' := by
  unfold tops at e
  rw [Exec.bind_ok] at e
  obtain ⟨s, e1, e2⟩ := e
  simp only [pure, Except.pure, Except.ok.injEq] at e2
  rw [← e2]
  refine foldlM_inv (P := fun s : (ℕ → ℕ → Bool) × Mesh => Reachable s.2) ?_ _ _ _ h e1
  intro s x s' hs es
  refine foldlM_inv (P := fun s : (ℕ → ℕ → Bool) × Mesh => Reachable s.2) ?_ _ _ _ hs es
  intro s y s' hs es
  unfold topCell at es
  rw [Exec.bind_ok] at es
  obtain ⟨v, -, es⟩ := es
  split_ifs at es with hc
  · rw [Exec.bind_ok] at es
    obtain ⟨⟨a, b⟩, -, es⟩ := es
    simp only [pure, Except.pure, Except.ok.injEq] at es
    rw [← es]
    exact ((addCorners_reachable hs _ _ _ _).addTriangle _ _ _).addTriangle _ _ _
  · simp only [pure, Except.pure, Except.ok.injEq] at es
    rw [← es]; exact hs

theorem sideBody_reachable {quad : Mesh → ℕ → ℕ → ℝ → ℝ → Mesh} (hq : ∀ M a b h h2, Reachable M → Reachable (quad M a b h h2))
    {s : SideState} (hs : Reachable s.mesh) (i : ℕ) (h h2 : ℝ) : Reachable (sideBody quad s i h h2).mesh := by
  unfold sideBody
  split
  · split_ifs
    · exact hq _ _ _ _ _ hs
    · exact hq _ _ _ _ _ hs
    · exact hs
  · exact hs

theorem sidesX_reachable {mx my : ℕ} {M M' : Mesh} (h : Reachable M) (e : sidesX grid res mx my M = .ok M') : Reachable M' := by
  unfold sidesX at e
  refine foldlM_inv (P := Reachable) ?_ _ _ _ h e
  intro M x M' hM e
  rw [Exec.bind_ok] at e
  obtain ⟨s, e1, e2⟩ := e
  simp only [pure, Except.pure, Except.ok.injEq] at e2
  rw [← e2]
  refine foldlM_inv (P := fun s : SideState => Reachable s.mesh) ?_ _ _ _ hM e1
  intro s y s' hs es
  rw [Exec.bind_ok] at es
  obtain ⟨v, -, es⟩ := es
  rw [Exec.bind_ok] at es
  obtain ⟨v', -, es⟩ := es
  simp only [pure, Except.pure, Except.ok.injEq] at es
  rw [← es]
  exact sideBody_reachable (fun M a b h h2 hM => ((addCorners_reachable hM _ _ _ _).addTriangle _ _ _).addTriangle _ _ _) hs _ _ _

theorem sidesY_reachable {mx my : ℕ} {M M' : Mesh} (h : Reachable M) (e : sidesY grid res mx my M = .ok M') : Reachable M' := by
  unfold sidesY at e
  refine foldlM_inv (P := Reachable) ?_ _ _ _ h e
  intro M x M' hM e
  rw [Exec.bind_ok] at e
  obtain ⟨s, e1, e2⟩ := e
  simp only [pure, Except.pure, Except.ok.injEq] at e2
  rw [← e2]
  refine foldlM_inv (P := fun s : SideState => Reachable s.mesh) ?_ _ _ _ hM e1
  intro s y s' hs es
  rw [Exec.bind_ok] at es
  obtain ⟨v, -, es⟩ := es
  rw [Exec.bind_ok] at es
  obtain ⟨v', -, es⟩ := es
  simp only [pure, Except.pure, Except.ok.injEq] at es
  rw [← es]
  exact sideBody_reachable (fun M a b h h2 hM => ((addCorners_reachable hM _ _ _ _).addTriangle _ _ _).addTriangle _ _ _) hs _ _ _

theorem fromGrid_reachable {h : HeightMap} (e : fromGrid grid res = .ok h) : Reachable h.mesh := by
  unfold fromGrid at e
  simp only [Exec.bind_ok] at e
  obtain ⟨_, _, _, _, _, _, _, _, M1, e1, M2, e2, M3, e3, M4, e4, e5⟩ := e
  simp only [pure, Except.pure, Except.ok.injEq] at e5
  rw [← e5]
  obtain ⟨ops, h3⟩ := sidesY_reachable (sidesX_reachable (tops_reachable ⟨[], rfl⟩ e1) e2) e3
  exact ⟨ops ++ [.filter], by rw [run_append h3]; simp [Mesh.run, Mesh.step, e4, bind, Except.bind]⟩

end Geo.HeightMap
