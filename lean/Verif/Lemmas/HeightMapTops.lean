import Verif.Lemmas.HeightMapUse

/-!
# When the top rectangles of a height map do not overlap, and the volume of its mesh
-/

namespace Geo.HeightMap

open Spec

variable {grid : List (List ℝ)} {m n : ℕ}

/-- Without notches, a row of cells of one height next to a cell of that height goes on beside it. -/
theorem no_notch_walk (hn : NoNotch grid) {h : ℝ} (h0 : 0 < h) {u v : ℕ} (huv : v = u + 1 ∨ u = v + 1) (k : ℕ) : ∀ xa : ℕ,
    height grid (xa + k) v = h → (∀ x, xa ≤ x → x ≤ xa + k → height grid x u = h) → height grid xa v = h := by
  induction k with
  | zero => intro xa h1 _; exact h1
  | succ k ih =>
    intro xa h1 h2
    have h3 := ih (xa + 1) (by rw [show xa + 1 + k = xa + (k + 1) by omega]; exact h1) fun x a b => h2 x (by omega) (by omega)
    have h4 := h2 (xa + 1) (by omega) (by omega)
    have h5 := h2 xa le_rfl (by omega)
    rcases huv with rfl | rfl
    · exact (hn xa u h h0 h4 h3).1 h5
    · exact (hn xa v h h0 h3 h4).2 h5

theorem separated_eq (hs : Separated grid) {x y x' y' : ℕ} (h : |height grid x y - height grid x' y'| ≤ 1e-10) :
    height grid x y = height grid x' y' := by
  by_contra hc
  exact absurd (hs x y x' y' hc) (not_lt.2 h)

/-- A top rectangle of a separated grid: all cells have its height, and the cell after its first column has not. -/
theorem good_top (hs : Separated grid) {a b c d : ℕ} {h : ℝ} (hg : GoodTop grid m n (.top a b c d h)) :
    a < c ∧ c ≤ m ∧ b < d ∧ d ≤ n ∧ 0 < h ∧ (∀ x y, a ≤ x → x < c → b ≤ y → y < d → height grid x y = h) ∧
      (d < n → height grid a d ≠ h) := by
  obtain ⟨h1, h2, h3, h4, h5, h6, h7, -, h9⟩ := hg
  refine ⟨h1, h2, h3, h4, h6, fun x y a1 a2 a3 a4 => ?_, fun hd he => ?_⟩
  · have := h7 x y a1 a2 a3 a4
    rw [h5] at this ⊢
    exact separated_eq hs this
  · rcases h9 with h9 | h9
    · omega
    · rw [he, sub_self, abs_zero] at h9
      norm_num at h9

/-- In a list that is sorted in this sense, of two different entries one comes first. -/
theorem pairwise_or {α : Type*} {R : α → α → Prop} {l : List α} (h : l.Pairwise R) {a b : α} (ha : a ∈ l) (hb : b ∈ l)
    (hne : a ≠ b) : R a b ∨ R b a := by
  induction h with
  | nil => simp at ha
  | @cons c l h1 h2 ih =>
    rw [List.mem_cons] at ha hb
    rcases ha with rfl | ha <;> rcases hb with rfl | hb
    · exact absurd rfl hne
    · exact .inl (h1 b hb)
    · exact .inr (h1 a ha)
    · exact ih ha hb

/-- Without notches the top rectangles do not overlap. -/
theorem tops_disjoint (hs : Separated grid) (hn : NoNotch grid) {F : List Face} (hF : ∀ f ∈ F, GoodTop grid m n f)
    (hp : F.Pairwise Face.StartsOutside) (hc : ∀ x y, 0 < height grid x y → ∃ f ∈ F, f.Covers x y) :
    F.Pairwise fun f g => ∀ x y, ¬ (f.Covers x y ∧ g.Covers x y) := by
  refine (List.Pairwise.imp_of_mem ?_ hp)
  intro A B hA hB hAB x y ⟨cA, cB⟩
  have gA := hF A hA
  have gB := hF B hB
  cases A with
  | wallX => exact gA
  | wallY => exact gA
  | top x0 y0 X0 Y0 h =>
  cases B with
  | wallX => exact gB
  | wallY => exact gB
  | top x1 y1 X1 Y1 h' =>
    obtain ⟨a1, a2, a3, a4, a5, a6, a7⟩ := good_top hs gA
    obtain ⟨b1, b2, b3, b4, b5, b6, b7⟩ := good_top hs gB
    obtain ⟨p1, p2, p3, p4⟩ := cA
    obtain ⟨q1, q2, q3, q4⟩ := cB
    obtain ⟨hlex, hout⟩ := hAB
    have hh : h' = h := by rw [← a6 x y p1 p2 p3 p4, b6 x y q1 q2 q3 q4]
    subst hh
    have hy : y1 < y0 := by
      by_contra hc'
      exact hout ⟨by omega, by omega, by omega, by omega⟩
    obtain ⟨v, rfl⟩ : ∃ v, y0 = v + 1 := ⟨y0 - 1, by omega⟩
    -- the cell before the start of `A` in `y`
    have hv : height grid x0 v = h' := by
      obtain ⟨k, rfl⟩ : ∃ k, x1 = x0 + k := ⟨x1 - x0, by omega⟩
      exact no_notch_walk hn a5 (u := v + 1) (v := v) (.inr rfl) k x0 (b6 _ _ (by omega) (by omega) (by omega) (by omega))
        fun x a b => a6 x _ (by omega) (by omega) (by omega) (by omega)
    obtain ⟨C, hC, cC⟩ := hc x0 v (by rw [hv]; exact a5)
    have gC := hF C hC
    cases C with
    | wallX => exact gC
    | wallY => exact gC
    | top xc yc Xc Yc hh =>
      obtain ⟨c1, c2, c3, c4, c5, c6, c7⟩ := good_top hs gC
      obtain ⟨r1, r2, r3, r4⟩ := cC
      have he : hh = h' := by rw [← c6 x0 v r1 r2 r3 r4, hv]
      subst he
      have hne : Face.top xc yc Xc Yc hh ≠ Face.top x0 (v + 1) X0 Y0 hh := by
        intro he
        injection he with e1 e2
        omega
      rcases pairwise_or hp hC hA hne with ⟨-, h2⟩ | ⟨h1, -⟩
      · have hY : Yc = v + 1 := by
          by_contra hne
          exact h2 ⟨by omega, by omega, by omega, by omega⟩
        subst hY
        obtain ⟨k, rfl⟩ : ∃ k, x0 = xc + k := ⟨x0 - xc, by omega⟩
        exact c7 (by omega) (no_notch_walk hn a5 (u := v) (v := v + 1) (.inl rfl) k xc
          (a6 _ _ le_rfl (by omega) le_rfl (by omega)) fun x a b => c6 x _ (by omega) (by omega) (by omega) (by omega))
      · omega

/-! ## The mesh of a coarse grid -/

theorem same_cell_near {x y : ℝ} (h : SameCell x y) : |x - y| < 0.002 := by
  obtain ⟨k, h⟩ := h
  rw [abs_lt]
  rcases h with ⟨q1, q2, -⟩ | ⟨-, q1, q2, q3, q4⟩ | ⟨-, q1, q2, q3, q4⟩
  · rw [abs_lt] at q1 q2
    constructor <;> linarith [q1.1, q1.2, q2.1, q2.2]
  · constructor <;> linarith
  · constructor <;> linarith

theorem coarse_separated {res : ℝ} (hc : Coarse grid res) : Separated grid := fun x y x' y' h =>
  lt_of_lt_of_le (by norm_num) (hc.2 x y x' y' h)

theorem coarse_same {res : ℝ} (hc : Coarse grid res) {p q : Vec3} (hp : InGrid grid m n res p) (hq : InGrid grid m n res q)
    (h : SameCell3 p q) : p = q := by
  obtain ⟨x, y, -, -, ex, ey, x', y', ez⟩ := hp
  obtain ⟨u, v, -, -, eu, ev, u', v', ew⟩ := hq
  have key : ∀ a b : ℕ, SameCell (res * a) (res * b) → a = b := by
    intro a b hab
    have h1 := same_cell_near hab
    rw [← mul_sub, abs_mul, abs_of_pos (lt_of_lt_of_le (by norm_num) hc.1)] at h1
    by_contra hne
    have h2 : (1:ℝ) ≤ |(a:ℝ) - b| := by
      have : (1:ℤ) ≤ |(a:ℤ) - b| := Int.one_le_abs (by omega)
      exact_mod_cast this
    nlinarith [hc.1]
  obtain ⟨h1, h2, h3⟩ := h
  ext
  · rw [ex, eu] at h1 ⊢; rw [key _ _ h1]
  · rw [ey, ev] at h2 ⊢; rw [key _ _ h2]
  · rw [ez, ew] at h3 ⊢
    by_contra hne
    exact absurd (same_cell_near h3) (not_lt.2 (hc.2 _ _ _ _ hne))

/-- The mesh of a coarse grid is made of its faces, unmoved. -/
theorem fromGrid_coarse (hg : Rectangular grid m n) (hm : 0 < m) {res : ℝ} (hr : GridInRange grid m n res)
    (hc : Coarse grid res) :
    ∃ (hmap : HeightMap) (F WX WY : List Face), fromGrid grid res = .ok hmap ∧
      (∀ f ∈ F, GoodTop grid m n f) ∧ F.Pairwise Face.StartsOutside ∧ (∀ x y, 0 < height grid x y → ∃ f ∈ F, f.Covers x y) ∧
      (∀ f ∈ WX, WallXIn grid m n f) ∧ (∀ f ∈ WY, WallYIn grid m n f) ∧ WallsX grid WX ∧ WallsY grid WY ∧
      soup hmap.mesh.points hmap.mesh.tris = some ((F ++ WX ++ WY).flatMap (Face.tris res)) ∧
      ∀ p ∈ hmap.mesh.points, InGrid grid m n res p := by
  obtain ⟨h, F, WX, WY, S, e, ⟨p1, p1'⟩, p2, p3, p4, p5, s1, s2, s3⟩ := fromGrid_ok hg hm hr
  obtain ⟨w1, w2⟩ := p5 (coarse_separated hc)
  refine ⟨h, F, WX, WY, e, p1, p1', p2, p3, p4, w1, w2, ?_, s3⟩
  rw [s1]
  congr 1
  have hin : ∀ t ∈ (F ++ WX ++ WY).flatMap (Face.tris res),
      InGrid grid m n res t.1 ∧ InGrid grid m n res t.2.1 ∧ InGrid grid m n res t.2.2 := by
    intro t ht
    rw [List.mem_flatMap] at ht
    obtain ⟨f, hf, htf⟩ := ht
    refine face_in hg ?_ t htf
    rw [List.mem_append, List.mem_append] at hf
    rcases hf with (hf | hf) | hf
    · exact .inl (p1 f hf)
    · exact .inr (.inl (p3 f hf))
    · exact .inr (.inr (p4 f hf))
  have hS : ∀ t ∈ S, InGrid grid m n res t.1 ∧ InGrid grid m n res t.2.1 ∧ InGrid grid m n res t.2.2 := fun t ht => by
    obtain ⟨m1, m2, m3⟩ := soup_mem s1 ht
    exact ⟨s3 _ m1, s3 _ m2, s3 _ m3⟩
  generalize (F ++ WX ++ WY).flatMap (Face.tris res) = L at s2 hin
  clear s1
  induction s2 with
  | nil => rfl
  | @cons a b l l' h1 h2 ih =>
    obtain ⟨i1, i2, i3⟩ := hin a List.mem_cons_self
    obtain ⟨j1, j2, j3⟩ := hS b List.mem_cons_self
    rw [ih (fun t ht => hS t (List.mem_cons_of_mem _ ht)) (fun t ht => hin t (List.mem_cons_of_mem _ ht)),
      show b = a from Prod.ext (coarse_same hc i1 j1 h1.1).symm
        (Prod.ext (coarse_same hc i2 j2 h1.2.1).symm (coarse_same hc i3 j3 h1.2.2).symm)]

/-! ## Volume -/

open Classical in
/-- Exchange of the sum over a list of faces with the sum over cells. -/
theorem sum_cells {α : Type*} (P : α → ℕ × ℕ → Prop) (U : Finset (ℕ × ℕ)) (g : ℕ × ℕ → ℝ) (W : List α) :
    (W.map fun f => ∑ c ∈ U, if P f c then g c else 0).sum = ∑ c ∈ U, (W.countP fun f => decide (P f c)) * g c := by
  induction W with
  | nil => simp
  | cons f W ih =>
    rw [List.map_cons, List.sum_cons, ih, ← Finset.sum_add_distrib]
    refine Finset.sum_congr rfl fun c _ => ?_
    rw [List.countP_cons]
    split_ifs with h1 h2 h2
    · push_cast; ring
    · simp [h1] at h2
    · simp [h1] at h2
    · push_cast; ring

open Classical in
/-- In a list whose entries exclude one another at `c`, the entries at `c` are counted by whether there is one. -/
theorem count_one {α : Type*} {P : α → ℕ × ℕ → Prop} {c : ℕ × ℕ} {W : List α}
    (hp : W.Pairwise fun f g => ¬ (P f c ∧ P g c)) (h : ∃ f ∈ W, P f c) : (W.countP fun f => decide (P f c)) = 1 := by
  induction hp with
  | nil => simp at h
  | @cons a l h1 h2 ih =>
    rw [List.countP_cons]
    by_cases ha : P a c
    · rw [if_pos (by simpa using ha), Nat.add_eq_right, List.countP_eq_zero]
      intro f hf hP
      exact h1 f hf ⟨ha, by simpa using hP⟩
    · rw [if_neg (by simpa using ha), Nat.add_zero]
      obtain ⟨f, hf, hP⟩ := h
      rw [List.mem_cons] at hf
      rcases hf with rfl | hf
      · exact absurd hP ha
      · exact ih ⟨f, hf, hP⟩

theorem sum_rect (U V a b c d : ℕ) (hb : b ≤ U) (hd : d ≤ V) (g : ℕ × ℕ → ℝ) [DecidablePred fun e : ℕ × ℕ => a ≤ e.1 ∧ e.1 < b ∧ c ≤ e.2 ∧ e.2 < d] :
    (∑ e ∈ Finset.range U ×ˢ Finset.range V, if a ≤ e.1 ∧ e.1 < b ∧ c ≤ e.2 ∧ e.2 < d then g e else 0) =
      ∑ x ∈ Finset.Ico a b, ∑ y ∈ Finset.Ico c d, g (x, y) := by
  rw [← Finset.sum_filter, ← Finset.sum_product']
  refine Finset.sum_congr ?_ fun _ _ => rfl
  ext e
  simp only [Finset.mem_filter, Finset.mem_product, Finset.mem_range, Finset.mem_Ico]
  omega

/-- Volume under one face. -/
def faceVol (res : ℝ) (f : Face) : ℝ := ((f.tris res).map vol6).sum

theorem sum_flatMap (res : ℝ) (L : List Face) : ((L.flatMap (Face.tris res)).map vol6).sum = (L.map (faceVol res)).sum := by
  induction L with
  | nil => rfl
  | cons f L ih => rw [List.flatMap_cons, List.map_append, List.sum_append, ih, List.map_cons, List.sum_cons]; rfl

theorem vol_top (res : ℝ) (a b c d : ℕ) (h : ℝ) :
    faceVol res (.top a b c d h) = 2 * (res * res * h) * (((c : ℝ) - a) * ((d : ℝ) - b)) := by
  simp only [faceVol, Face.tris, List.map_cons, List.map_nil, List.sum_cons, List.sum_nil, vol6]
  ring

theorem vol_wallX (res : ℝ) (x y0 y1 : ℕ) (h h2 : ℝ) :
    faceVol res (.wallX x y0 y1 h h2) = 2 * (res * res) * ((x : ℝ) * (h2 - h)) * ((y1 : ℝ) - y0) := by
  simp only [faceVol, Face.tris, List.map_cons, List.map_nil, List.sum_cons, List.sum_nil, vol6]
  ring

theorem vol_wallY (res : ℝ) (y x0 x1 : ℕ) (h h2 : ℝ) :
    faceVol res (.wallY y x0 x1 h h2) = 2 * (res * res) * ((y : ℝ) * (h2 - h)) * ((x1 : ℝ) - x0) := by
  simp only [faceVol, Face.tris, List.map_cons, List.map_nil, List.sum_cons, List.sum_nil, vol6]
  ring

/-- Summation by parts. -/
theorem sum_parts (H HL : ℕ → ℝ) (h : ∀ x, HL x = if x = 0 then 0 else H (x - 1)) (m : ℕ) :
    ∑ x ∈ Finset.range (m + 1), (x : ℝ) * (HL x - H x) = (∑ x ∈ Finset.range m, H x) - m * H m := by
  induction m with
  | zero => simp
  | succ m ih =>
    rw [Finset.sum_range_succ, ih, Finset.sum_range_succ, h (m + 1), if_neg (by omega), Nat.add_sub_cancel]
    push_cast
    ring

open Classical in
theorem vol_wallsX (hg : Rectangular grid m n) (res : ℝ) {W : List Face} (h1 : ∀ f ∈ W, WallXIn grid m n f)
    (h2 : WallsX grid W) : (W.map (faceVol res)).sum = 2 * columnsVolume grid m n res := by
  obtain ⟨w1, w2, w3⟩ := h2
  let g : ℕ × ℕ → ℝ := fun c => 2 * (res * res) * ((c.1 : ℝ) * (heightLeft grid c.1 c.2 - height grid c.1 c.2))
  have e1 : W.map (faceVol res) = W.map fun f => ∑ c ∈ Finset.range (m + 1) ×ˢ Finset.range n,
      if f.AtX c.1 c.2 then g c else 0 := by
    refine List.map_congr_left fun f hf => ?_
    have hin := h1 f hf
    have hw := w1 f hf
    cases f with
    | top => exact hin.elim
    | wallY => exact hin.elim
    | wallX x y0 y1 h h' =>
      obtain ⟨i1, i2, i3, -⟩ := hin
      have e : ∀ c : ℕ × ℕ, ((Face.wallX x y0 y1 h h').AtX c.1 c.2) ↔ (x ≤ c.1 ∧ c.1 < x + 1 ∧ y0 ≤ c.2 ∧ c.2 < y1) := by
        intro c; simp only [Face.AtX]; omega
      simp only [e]
      rw [sum_rect (m + 1) n x (x + 1) y0 y1 (by omega) i3, vol_wallX, Nat.Ico_succ_singleton, Finset.sum_singleton,
        Finset.sum_congr rfl (g := fun _ => 2 * (res * res) * ((x : ℝ) * (h' - h)))]
      · rw [Finset.sum_const, Nat.card_Ico, nsmul_eq_mul, Nat.cast_sub i2.le]; ring
      · intro y hy
        rw [Finset.mem_Ico] at hy
        have := (hw x y ⟨rfl, hy.1, hy.2⟩).1
        simp only [Face.wallHeights, Prod.mk.injEq] at this
        simp only [g, this.1, this.2]
  rw [e1, sum_cells (α := Face) (fun f c => f.AtX c.1 c.2) _ g W]
  have e2 : ∀ c ∈ Finset.range (m + 1) ×ˢ Finset.range n,
      ((W.countP fun f => decide (f.AtX c.1 c.2) : ℕ) : ℝ) * g c = g c := by
    intro c _
    by_cases hc : height grid c.1 c.2 = heightLeft grid c.1 c.2
    · simp [g, hc]
    · rw [count_one (P := fun (f : Face) c => f.AtX c.1 c.2) (c := c) (w3.imp fun h => h c.1 c.2) (w2 _ _ hc)]
      simp
  rw [Finset.sum_congr rfl e2, Finset.sum_product_right]
  have e3 : ∀ y, ∑ x ∈ Finset.range (m + 1), g (x, y) = 2 * (res * res) * ∑ x ∈ Finset.range m, height grid x y := by
    intro y
    simp only [g]
    rw [← Finset.mul_sum, sum_parts (fun x => height grid x y) (fun x => heightLeft grid x y) (fun x => rfl),
      height_out hg (.inl le_rfl), mul_zero, sub_zero]
  rw [Finset.sum_congr rfl fun y _ => e3 y, columnsVolume, Finset.sum_comm (s := Finset.range m)]
  simp only [← Finset.mul_sum]
  ring

open Classical in
theorem vol_wallsY (hg : Rectangular grid m n) (res : ℝ) {W : List Face} (h1 : ∀ f ∈ W, WallYIn grid m n f)
    (h2 : WallsY grid W) : (W.map (faceVol res)).sum = 2 * columnsVolume grid m n res := by
  obtain ⟨w1, w2, w3⟩ := h2
  let g : ℕ × ℕ → ℝ := fun c => 2 * (res * res) * ((c.2 : ℝ) * (heightBelow grid c.1 c.2 - height grid c.1 c.2))
  have e1 : W.map (faceVol res) = W.map fun f => ∑ c ∈ Finset.range m ×ˢ Finset.range (n + 1),
      if f.AtY c.1 c.2 then g c else 0 := by
    refine List.map_congr_left fun f hf => ?_
    have hin := h1 f hf
    have hw := w1 f hf
    cases f with
    | top => exact hin.elim
    | wallX => exact hin.elim
    | wallY y x0 x1 h h' =>
      obtain ⟨i1, i2, i3, -⟩ := hin
      have e : ∀ c : ℕ × ℕ, ((Face.wallY y x0 x1 h h').AtY c.1 c.2) ↔ (x0 ≤ c.1 ∧ c.1 < x1 ∧ y ≤ c.2 ∧ c.2 < y + 1) := by
        intro c; simp only [Face.AtY]; omega
      simp only [e]
      rw [sum_rect m (n + 1) x0 x1 y (y + 1) i3 (by omega), vol_wallY, Nat.Ico_succ_singleton]
      simp only [Finset.sum_singleton]
      rw [Finset.sum_congr rfl (g := fun _ => 2 * (res * res) * ((y : ℝ) * (h' - h)))]
      · rw [Finset.sum_const, Nat.card_Ico, nsmul_eq_mul, Nat.cast_sub i2.le]; ring
      · intro x hx
        rw [Finset.mem_Ico] at hx
        have := (hw x y ⟨rfl, hx.1, hx.2⟩).1
        simp only [Face.wallHeights, Prod.mk.injEq] at this
        simp only [g, this.1, this.2]
  rw [e1, sum_cells (α := Face) (fun f c => f.AtY c.1 c.2) _ g W]
  have e2 : ∀ c ∈ Finset.range m ×ˢ Finset.range (n + 1),
      ((W.countP fun f => decide (f.AtY c.1 c.2) : ℕ) : ℝ) * g c = g c := by
    intro c _
    by_cases hc : height grid c.1 c.2 = heightBelow grid c.1 c.2
    · simp [g, hc]
    · rw [count_one (P := fun (f : Face) c => f.AtY c.1 c.2) (c := c) (w3.imp fun h => h c.1 c.2) (w2 _ _ hc)]
      simp
  rw [Finset.sum_congr rfl e2, Finset.sum_product]
  have e3 : ∀ x, ∑ y ∈ Finset.range (n + 1), g (x, y) = 2 * (res * res) * ∑ y ∈ Finset.range n, height grid x y := by
    intro x
    simp only [g]
    rw [← Finset.mul_sum, sum_parts (fun y => height grid x y) (fun y => heightBelow grid x y) (fun y => rfl),
      height_out hg (.inr le_rfl), mul_zero, sub_zero]
  rw [Finset.sum_congr rfl fun x _ => e3 x, columnsVolume]
  simp only [← Finset.mul_sum]
  ring

open Classical in
theorem vol_tops (hs : Separated grid) (res : ℝ) {F : List Face} (h1 : ∀ f ∈ F, GoodTop grid m n f) :
    (F.map (faceVol res)).sum = ∑ x ∈ Finset.range m, ∑ y ∈ Finset.range n,
      2 * (F.countP fun f => decide (f.Covers x y)) * (res * res * height grid x y) := by
  let g : ℕ × ℕ → ℝ := fun c => 2 * (res * res * height grid c.1 c.2)
  have e1 : F.map (faceVol res) = F.map fun f => ∑ c ∈ Finset.range m ×ˢ Finset.range n,
      if f.Covers c.1 c.2 then g c else 0 := by
    refine List.map_congr_left fun f hf => ?_
    have hin := h1 f hf
    cases f with
    | wallX => exact hin.elim
    | wallY => exact hin.elim
    | top a b c d h =>
      obtain ⟨i1, i2, i3, i4, i5, i6, -⟩ := good_top hs hin
      have e : ∀ e : ℕ × ℕ, ((Face.top a b c d h).Covers e.1 e.2) ↔ (a ≤ e.1 ∧ e.1 < c ∧ b ≤ e.2 ∧ e.2 < d) := fun e => Iff.rfl
      simp only [e]
      rw [sum_rect m n a c b d i2 i4, vol_top, Finset.sum_congr rfl (g := fun _ => ((d:ℝ) - b) * (2 * (res * res * h)))]
      · rw [Finset.sum_const, Nat.card_Ico, nsmul_eq_mul, Nat.cast_sub i1.le]; ring
      · intro x hx
        rw [Finset.sum_congr rfl (g := fun _ => (2 * (res * res * h)))]
        · rw [Finset.sum_const, Nat.card_Ico, nsmul_eq_mul, Nat.cast_sub i3.le]
        · intro y hy
          rw [Finset.mem_Ico] at hx hy
          simp only [g, i6 x y hx.1 hx.2 hy.1 hy.2]
  rw [e1, sum_cells (α := Face) (fun f c => f.Covers c.1 c.2) _ g F, Finset.sum_product]
  refine Finset.sum_congr rfl fun x _ => Finset.sum_congr rfl fun y _ => ?_
  simp only [g]
  ring

end Geo.HeightMap
