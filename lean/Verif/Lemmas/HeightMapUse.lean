import Verif.Lemmas.HeightMapMesh

/-!
# Helper lemmas for height maps: `fromGrid` as a whole
-/

namespace Geo
open Spec

/-- The only fault is undefined behaviour. -/
def OnlyUb {α : Type _} (x : Exec α) : Prop := ∀ e, x = .error e → e = .ub

theorem OnlyUb.ok {α : Type _} (a : α) : OnlyUb (.ok a : Exec α) := by
  intro e h; simp at h

theorem OnlyUb.ub {α : Type _} : OnlyUb (.error .ub : Exec α) := by
  intro e h; simpa using h.symm

theorem OnlyUb.bind {α β : Type _} {x : Exec α} {f : α → Exec β} (h : OnlyUb x) (hf : ∀ a, OnlyUb (f a)) :
    OnlyUb (x >>= f) := by
  intro e he
  cases x with
  | error e' =>
    simp only [Bind.bind, Except.bind, Except.error.injEq] at he
    exact he ▸ h e' rfl
  | ok a => exact hf a e he

theorem OnlyUb.vget {α : Type _} (l : List α) (i : ℕ) : OnlyUb (vget l i) := by
  unfold Geo.vget
  cases l[i]? with
  | none => exact .ub
  | some a => exact .ok a

theorem OnlyUb.mapM {α β : Type _} {f : α → Exec β} {l : List α} (hf : ∀ a, OnlyUb (f a)) : OnlyUb (l.mapM f) := by
  induction l with
  | nil => exact .ok []
  | cons a l ih =>
    rw [List.mapM_cons]
    exact (hf a).bind fun _ => ih.bind fun _ => .ok _

theorem OnlyUb.castInt (x : ℝ) : OnlyUb (castInt x) := by
  unfold Geo.castInt
  split_ifs
  · exact .ok _
  · exact .ub

theorem OnlyUb.filterLoop (vs : List Vec3) : ∀ pts xyz imap, OnlyUb (Mesh.filterLoop vs pts xyz imap) := by
  induction vs with
  | nil => intro pts xyz imap; exact .ok _
  | cons v vs ih =>
    intro pts xyz imap
    unfold Mesh.filterLoop
    refine OnlyUb.bind ?_ fun key => ?_
    · exact (OnlyUb.castInt _).bind fun _ => (OnlyUb.castInt _).bind fun _ => (OnlyUb.castInt _).bind fun _ => .ok _
    · cases xyz.lookup key with
      | none => exact ih _ _ _
      | some i => exact ih _ _ _

theorem OnlyUb.filter (m : Mesh) : OnlyUb m.filterOverlappingVertices := by
  unfold Mesh.filterOverlappingVertices
  refine (OnlyUb.filterLoop _ _ _ _).bind fun r => ?_
  refine OnlyUb.bind (OnlyUb.mapM fun t => ?_) fun _ => .ok _
  exact (OnlyUb.vget _ _).bind fun _ => (OnlyUb.vget _ _).bind fun _ => (OnlyUb.vget _ _).bind fun _ => .ok _

theorem OnlyUb.powGrid (grid : List (List ℝ)) (a b : ℕ) : OnlyUb (HeightMap.powGrid grid a b) := by
  unfold HeightMap.powGrid
  refine OnlyUb.bind (OnlyUb.mapM fun row => ?_) fun _ => .ok _
  exact (OnlyUb.mapM fun _ => OnlyUb.vget _ _).bind fun _ => .ok _

namespace HeightMap

variable {grid : List (List ℝ)} {m n : ℕ}

/-- `fromGrid` up to the vertex merge. -/
theorem fromGrid_eq (hg : Rectangular grid m n) (hm : 0 < m) (hm' : m ≤ 2 ^ 31) (hn : n ≤ 2 ^ 31) (res : ℝ) :
    ∃ (k : ℕ) (F WX WY : List Face), (m ≤ 2 ^ k ∧ ∀ j < k, 2 ^ j < max m n) ∧ n ≤ 2 ^ k ∧
      F.length ≤ m * n ∧ WX.length ≤ (m + 1) * (n + 1) ∧ WY.length ≤ (n + 1) * (m + 1) ∧
      ((∀ f ∈ F, GoodTop grid m n f) ∧ F.Pairwise Face.StartsOutside) ∧ (∀ x y, 0 < height grid x y → ∃ f ∈ F, f.Covers x y) ∧
      (∀ f ∈ WX, WallXIn grid m n f) ∧ (∀ f ∈ WY, WallYIn grid m n f) ∧
      (Separated grid → WallsX grid WX ∧ WallsY grid WY) ∧
      fromGrid grid res = (do
        let m' ← ((F ++ WX ++ WY).foldl (addFace res) Mesh.new).filterOverlappingVertices
        return ⟨quad (height grid) res k 0 0, m'⟩) := by
  have hlen := hg.1
  have hrow : vget grid 0 = .ok grid[0] := vget_lt (by omega)
  have hrl : grid[0].length = n := hg.2 _ (List.getElem_mem _)
  have e1 : u32 m = m := Nat.mod_eq_of_lt (by omega)
  have e2 : u32 n = n := Nat.mod_eq_of_lt (by omega)
  obtain ⟨k, hk, hkmin, hpow⟩ := powSize (size := max m n) (max_le hm' hn)
  have hmk : m ≤ 2 ^ k := le_trans (le_max_left _ _) hk
  have hnk : n ≤ 2 ^ k := le_trans (le_max_right _ _) hk
  obtain ⟨map, hmap, hcell⟩ := powGrid_eq hg hmk hnk
  have htree := createQuadTree_eq (map := map) (H := height grid) (res := res) k 0 0
    (fun x y a b => hcell x y (by omega) (by omega))
  simp only [Nat.zero_add] at htree
  obtain ⟨m1, F, f1, f2, f3, f4, f6, f5⟩ := tops_ok hg res Mesh.new
  obtain ⟨m2, WX, x1, x2, x3, x4, x5⟩ := sidesX_ok hg res m1
  obtain ⟨m3, WY, y1, y2, y3, y4, y5⟩ := sidesY_ok hg res m2
  refine ⟨k, F, WX, WY, ⟨hmk, hkmin⟩, hnk, f3, x3, y3, ⟨f4, f6⟩, f5, x4, y4, fun hs => ⟨x5 hs, y5 hs⟩, ?_⟩
  unfold fromGrid
  simp only [hlen, hrow, bind, Except.bind, hrl, e1, e2, hpow, hmap, htree, f1, x1, y1]
  rw [List.foldl_append, List.foldl_append, ← f2, ← x2, ← y2]

theorem root_of_ok (hg : Rectangular grid m n) (hm : 0 < m) (hm' : m ≤ 2 ^ 31) (hn : n ≤ 2 ^ 31) {res : ℝ}
    {hmap : HeightMap} (h : fromGrid grid res = .ok hmap) :
    ∃ k, (m ≤ 2 ^ k ∧ ∀ j < k, 2 ^ j < max m n) ∧ n ≤ 2 ^ k ∧ hmap.root = quad (height grid) res k 0 0 := by
  obtain ⟨k, F, WX, WY, h1, h2, -, -, -, -, -, -, -, -, e⟩ := fromGrid_eq hg hm hm' hn res
  rw [e, Exec.bind_ok] at h
  obtain ⟨m', -, h3⟩ := h
  simp only [pure, Except.pure, Except.ok.injEq] at h3
  exact ⟨k, h1, h2, by rw [← h3]⟩

/-- Leaves in terms of positive cells. -/
theorem leaf_iff (hg : Rectangular grid m n) {res : ℝ} {k : ℕ} (hm : m ≤ 2 ^ k) (hn : n ≤ 2 ^ k) (l : Box) :
    l ∈ leaves (quad (height grid) res k 0 0) ↔
      ∃ c : ℕ × ℕ, 0 < height grid c.1 c.2 ∧ l = Box.new (columnLo res c) (columnHi res grid c) := by
  rw [leaves_quad]
  simp only [List.mem_map, List.mem_filter, decide_eq_true_eq, mem_cells]
  constructor
  · rintro ⟨c, ⟨-, h⟩, rfl⟩; exact ⟨c, h, rfl⟩
  · rintro ⟨c, h, rfl⟩
    refine ⟨c, ⟨?_, h⟩, rfl⟩
    have : c.1 < m ∧ c.2 < n := by
      by_contra hc
      rw [height_out hg (by omega)] at h
      exact lt_irrefl _ h
    omega

theorem face_in (hg : Rectangular grid m n) {res : ℝ} {f : Face}
    (hf : GoodTop grid m n f ∨ WallXIn grid m n f ∨ WallYIn grid m n f) :
    ∀ t ∈ f.tris res, InGrid grid m n res t.1 ∧ InGrid grid m n res t.2.1 ∧ InGrid grid m n res t.2.2 := by
  have h0 : ∃ x' y', (0:ℝ) = height grid x' y' := ⟨m, 0, (height_out hg (.inl le_rfl)).symm⟩
  have hL : ∀ x y, ∃ x' y', heightLeft grid x y = height grid x' y' := by
    intro x y; unfold heightLeft; split_ifs
    · exact h0
    · exact ⟨_, _, rfl⟩
  have hB : ∀ x y, ∃ x' y', heightBelow grid x y = height grid x' y' := by
    intro x y; unfold heightBelow; split_ifs
    · exact h0
    · exact ⟨_, _, rfl⟩
  cases f with
  | top x0 y0 x1 y1 h =>
    rcases hf with ⟨h1, h2, h3, h4, h5, -⟩ | hf | hf
    · have hz : ∃ x' y', h = height grid x' y' := ⟨_, _, h5⟩
      simp only [Face.tris, List.mem_cons, List.not_mem_nil, or_false, forall_eq_or_imp, forall_eq]
      refine ⟨⟨⟨x0, y0, ?_⟩, ⟨x1, y0, ?_⟩, ⟨x0, y1, ?_⟩⟩, ⟨x1, y0, ?_⟩, ⟨x1, y1, ?_⟩, ⟨x0, y1, ?_⟩⟩ <;>
        exact ⟨by omega, by omega, rfl, rfl, hz⟩
    · exact hf.elim
    · exact hf.elim
  | wallX x y0 y1 h h2 =>
    rcases hf with hf | ⟨h1, h3, h4, h5, h6⟩ | hf
    · exact hf.elim
    · have hz : ∃ x' y', h = height grid x' y' := ⟨_, _, h5⟩
      have hz2 : ∃ x' y', h2 = height grid x' y' := h6 ▸ hL _ _
      simp only [Face.tris, List.mem_cons, List.not_mem_nil, or_false, forall_eq_or_imp, forall_eq]
      refine ⟨⟨⟨x, y1, ?_⟩, ⟨x, y0, ?_⟩, ⟨x, y0, ?_⟩⟩, ⟨x, y0, ?_⟩, ⟨x, y1, ?_⟩, ⟨x, y1, ?_⟩⟩ <;>
        first | exact ⟨by omega, by omega, rfl, rfl, hz⟩ | exact ⟨by omega, by omega, rfl, rfl, hz2⟩
    · exact hf.elim
  | wallY y x0 x1 h h2 =>
    rcases hf with hf | hf | ⟨h1, h3, h4, h5, h6⟩
    · exact hf.elim
    · exact hf.elim
    · have hz : ∃ x' y', h = height grid x' y' := ⟨_, _, h5⟩
      have hz2 : ∃ x' y', h2 = height grid x' y' := h6 ▸ hB _ _
      simp only [Face.tris, List.mem_cons, List.not_mem_nil, or_false, forall_eq_or_imp, forall_eq]
      refine ⟨⟨⟨x0, y, ?_⟩, ⟨x1, y, ?_⟩, ⟨x0, y, ?_⟩⟩, ⟨x1, y, ?_⟩, ⟨x0, y, ?_⟩, ⟨x1, y, ?_⟩⟩ <;>
        first | exact ⟨by omega, by omega, rfl, rfl, hz⟩ | exact ⟨by omega, by omega, rfl, rfl, hz2⟩

/-- `fromGrid` on a grid in range: it returns, and what the mesh is. -/
theorem fromGrid_ok (hg : Rectangular grid m n) (hm : 0 < m) {res : ℝ} (hr : GridInRange grid m n res) :
    ∃ (hmap : HeightMap) (F WX WY : List Face) (S : List (Vec3 × Vec3 × Vec3)),
      fromGrid grid res = .ok hmap ∧
      ((∀ f ∈ F, GoodTop grid m n f) ∧ F.Pairwise Face.StartsOutside) ∧ (∀ x y, 0 < height grid x y → ∃ f ∈ F, f.Covers x y) ∧
      (∀ f ∈ WX, WallXIn grid m n f) ∧ (∀ f ∈ WY, WallYIn grid m n f) ∧
      (Separated grid → WallsX grid WX ∧ WallsY grid WY) ∧
      soup hmap.mesh.points hmap.mesh.tris = some S ∧
      List.Forall₂ (fun c c' => SameCell3 c.1 c'.1 ∧ SameCell3 c.2.1 c'.2.1 ∧ SameCell3 c.2.2 c'.2.2)
        ((F ++ WX ++ WY).flatMap (Face.tris res)) S ∧
      (∀ p ∈ hmap.mesh.points, InGrid grid m n res p) := by
  obtain ⟨r1, r2, r3⟩ := hr
  have hmn : (m + 1) * (n + 1) = m * n + m + n + 1 := by ring
  have hmn' : (n + 1) * (m + 1) = m * n + m + n + 1 := by ring
  obtain ⟨k, F, WX, WY, h1, h2, l1, l2, l3, p1, p2, p3, p4, p5, e⟩ :=
    fromGrid_eq hg hm (by nlinarith) (by nlinarith) res
  have hb := built_faces res (F ++ WX ++ WY) built_new (by
    have : Mesh.new.points.length = 0 := rfl
    simp only [List.length_append, this]
    rw [hmn] at r1 l2
    rw [hmn'] at l3
    omega)
  rw [List.nil_append] at hb
  have hin : ∀ p ∈ ((F ++ WX ++ WY).foldl (addFace res) Mesh.new).points, InGrid grid m n res p := by
    intro p hp
    obtain ⟨t, ht, hpt⟩ := hb.2.2 p hp
    rw [List.mem_flatMap] at ht
    obtain ⟨f, hf, htf⟩ := ht
    have hf' : GoodTop grid m n f ∨ WallXIn grid m n f ∨ WallYIn grid m n f := by
      rw [List.mem_append, List.mem_append] at hf
      rcases hf with (hf | hf) | hf
      · exact .inl (p1.1 f hf)
      · exact .inr (.inl (p3 f hf))
      · exact .inr (.inr (p4 f hf))
    obtain ⟨q1, q2, q3⟩ := face_in hg hf' t htf
    rcases hpt with rfl | rfl | rfl
    exacts [q1, q2, q3]
  obtain ⟨m', m'', c1, -, -, -, c2, c3, -, S0, S, s1, s2, s3⟩ := C13_merge
    ((F ++ WX ++ WY).foldl (addFace res) Mesh.new) (Mesh.valid_of_soup hb.1) (by
      intro p hp
      obtain ⟨x, y, hx, hy, ex, ey, x', y', ez⟩ := hin p hp
      obtain ⟨k1, k2⟩ := r2 x y hx hy
      exact ⟨by rw [ex]; exact k1, by rw [ey]; exact k2, by rw [ez]; exact r3 x' y'⟩)
    (by
      rw [hb.2.1]
      have e2 : ∀ F : List Face, (F.flatMap (Face.tris res)).length = 2 * F.length := by
        intro F
        induction F with
        | nil => rfl
        | cons f F ih =>
          rw [List.flatMap_cons, List.length_append, ih, List.length_cons]
          have : (f.tris res).length = 2 := by cases f <;> rfl
          omega
      rw [e2]
      simp only [List.length_append]
      rw [hmn] at r1 l2
      rw [hmn'] at l3
      omega)
  rw [hb.1] at s1
  simp only [Option.some.injEq] at s1
  subst s1
  refine ⟨⟨quad (height grid) res k 0 0, m'⟩, F, WX, WY, S, ?_, p1, p2, p3, p4, p5, s2, s3, ?_⟩
  · rw [e, c1]; rfl
  · intro p hp
    exact hin p (c3.subset hp)

/-- Bounds on all values bound all heights. -/
theorem height_bound {B : ℝ} (hB : 0 < B) (h : ∀ row ∈ grid, ∀ v ∈ row, |1000 * v| < B) (x y : ℕ) :
    |1000 * height grid x y| < B := by
  unfold height
  rcases lt_or_ge x grid.length with hx | hx
  · rcases lt_or_ge y grid[x].length with hy | hy
    · simp only [List.getD_eq_getElem?_getD, hx, hy, List.getElem?_eq_getElem, Option.getD_some]
      exact h _ (List.getElem_mem hx) _ (List.getElem_mem hy)
    · simp [hx, hy, hB]
  · simp [hx, hB]

/-- A grid of at most 100 × 100 cells of width at most 1 and heights at most 1000 is in range. -/
theorem small_inRange {res : ℝ} (hm : m ≤ 100) (hn : n ≤ 100) (hr : |res| ≤ 1)
    (h : ∀ row ∈ grid, ∀ v ∈ row, |v| ≤ 1000) : GridInRange grid m n res := by
  have c : ∀ x : ℕ, x ≤ 100 → |1000 * (res * x)| < 2 ^ 31 := by
    intro x hx
    have hx' : (x:ℝ) ≤ 100 := by exact_mod_cast hx
    have hx0 : (0:ℝ) ≤ x := Nat.cast_nonneg x
    rw [abs_mul, abs_mul, abs_of_nonneg hx0, abs_of_pos (by norm_num : (0:ℝ) < 1000)]
    have : |res| * x ≤ 1 * 100 := mul_le_mul hr hx' hx0 (by norm_num)
    linarith
  refine ⟨?_, fun x y hx hy => ⟨c x (by omega), c y (by omega)⟩, height_bound (by norm_num) ?_⟩
  · have : (m + 1) * (n + 1) ≤ 101 * 101 := Nat.mul_le_mul (by omega) (by omega)
    omega
  · intro row hrow v hv
    have := h row hrow v hv
    rw [abs_mul, abs_of_pos (by norm_num : (0:ℝ) < 1000)]
    linarith

end HeightMap
end Geo
