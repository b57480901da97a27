import Verif.Lemmas.HeightMapTops
import Verif.Lemmas.Inside
import Mathlib.Data.Prod.Lex
import Mathlib.Tactic.Order

/-!
# Crossings of a probe with the mesh of a height map
-/

namespace Geo.HeightMap

open Spec

/-! ## One column: entries and exits in time -/

open Classical in
/-- 1 if the proposition holds, else 0. (Device of the proofs.) -/
noncomputable def ind (P : Prop) : ℝ := if P then 1 else 0

theorem ind_pos {P : Prop} (h : P) : ind P = 1 := if_pos h

theorem ind_neg {P : Prop} (h : ¬ P) : ind P = 0 := if_neg h

theorem ind_nonneg (P : Prop) : 0 ≤ ind P := by
  unfold ind; split_ifs <;> norm_num

theorem ind_congr {P Q : Prop} (h : P ↔ Q) : ind P = ind Q := by rw [propext h]

/-- A segment that starts at `o`, enters three slabs at `a1`, `a2`, `a3` and leaves two of them at `d1`, `d2`: exits minus
entries tell whether it starts inside all slabs. -/
theorem box_times {α : Type*} [LinearOrder α] {o a1 a2 a3 d1 d2 : α} (h1 : a1 < d1) (h2 : a2 < d2) (n12 : a1 ≠ a2)
    (n13 : a1 ≠ a3) (n23 : a2 ≠ a3) (nd : d1 ≠ d2) (n1 : a1 ≠ o) (n2 : a2 ≠ o) (n3 : a3 ≠ o)
    (m12 : a1 ≠ d2) (m21 : a2 ≠ d1) (m31 : a3 ≠ d1) (m32 : a3 ≠ d2) :
    ind (o < d1 ∧ a2 < d1 ∧ d1 < d2 ∧ a3 < d1) + ind (o < d2 ∧ a1 < d2 ∧ d2 < d1 ∧ a3 < d2)
      - ind (o < a1 ∧ a2 < a1 ∧ a1 < d2 ∧ a3 < a1) - ind (o < a2 ∧ a1 < a2 ∧ a2 < d1 ∧ a3 < a2)
      - ind (o < a3 ∧ a1 < a3 ∧ a3 < d1 ∧ a2 < a3 ∧ a3 < d2)
    = ind (a1 < o ∧ o < d1 ∧ a2 < o ∧ o < d2 ∧ a3 < o) := by
  -- the last entry `a` and the first exit `d` decide
  have key : ∀ a d : α, a ≠ o → a ≠ d → ind (o < d ∧ a < d) - ind (o < a ∧ a < d) = ind (a < o ∧ o < d) := by
    intro a d g1 g2
    rcases lt_or_gt_of_ne g1 with g | g
    · rw [ind_neg (P := o < a ∧ a < d) fun h => lt_asymm g h.1, sub_zero]
      exact ind_congr ⟨fun h => ⟨g, h.1⟩, fun h => ⟨h.2, g.trans h.2⟩⟩
    · rw [ind_neg (P := a < o ∧ o < d) fun h => lt_asymm g h.1, sub_eq_zero]
      exact ind_congr ⟨fun h => ⟨g, h.2⟩, fun h => ⟨g.trans h.2, h.2⟩⟩
  have last : (a2 < a1 ∧ a3 < a1) ∨ (a1 < a2 ∧ a3 < a2) ∨ (a1 < a3 ∧ a2 < a3) := by
    rcases lt_or_gt_of_ne n12 with c1 | c1 <;> rcases lt_or_gt_of_ne n13 with c2 | c2 <;>
      rcases lt_or_gt_of_ne n23 with c3 | c3 <;> first | (exfalso; order) | simp [*]
  rcases last with ⟨l1, l2⟩ | ⟨l1, l2⟩ | ⟨l1, l2⟩ <;> rcases lt_or_gt_of_ne nd with l3 | l3
  · have k := key a1 d1 n1 h1.ne
    rw [ind_neg (P := o < d2 ∧ _) fun h => lt_asymm l3 h.2.2.1, ind_neg (P := o < a2 ∧ _) fun h => lt_asymm l1 h.2.1,
      ind_neg (P := o < a3 ∧ _) fun h => lt_asymm l2 h.2.1, add_zero, sub_zero, sub_zero,
      ind_congr (P := o < d1 ∧ _) (Q := o < d1 ∧ a1 < d1) ⟨fun h => ⟨h.1, h1⟩, fun h => ⟨h.1, l1.trans h1, l3, l2.trans h1⟩⟩,
      ind_congr (P := o < a1 ∧ _ ∧ _) (Q := o < a1 ∧ a1 < d1) ⟨fun h => ⟨h.1, h1⟩, fun h => ⟨h.1, l1, h1.trans l3, l2⟩⟩, k]
    exact ind_congr ⟨fun h => ⟨h.1, h.2, l1.trans h.1, h.2.trans l3, l2.trans h.1⟩, fun h => ⟨h.1, h.2.1⟩⟩
  · have k := key a1 d2 n1 m12
    rw [ind_neg (P := o < d1 ∧ _) fun h => lt_asymm l3 h.2.2.1, ind_neg (P := o < a2 ∧ _) fun h => lt_asymm l1 h.2.1,
      ind_neg (P := o < a3 ∧ _) fun h => lt_asymm l2 h.2.1, zero_add, sub_zero, sub_zero,
      ind_congr (P := o < d2 ∧ _) (Q := o < d2 ∧ a1 < d2) ⟨fun h => ⟨h.1, h.2.1⟩, fun h => ⟨h.1, h.2, l3, l2.trans h.2⟩⟩,
      ind_congr (P := o < a1 ∧ _) (Q := o < a1 ∧ a1 < d2) ⟨fun h => ⟨h.1, h.2.2.1⟩, fun h => ⟨h.1, l1, h.2, l2⟩⟩, k]
    exact ind_congr ⟨fun h => ⟨h.1, h.2.trans l3, l1.trans h.1, h.2, l2.trans h.1⟩, fun h => ⟨h.1, h.2.2.2.1⟩⟩
  · have k := key a2 d1 n2 m21
    rw [ind_neg (P := o < d2 ∧ _) fun h => lt_asymm l3 h.2.2.1, ind_neg (P := o < a1 ∧ _) fun h => lt_asymm l1 h.2.1,
      ind_neg (P := o < a3 ∧ _) fun h => lt_asymm l2 h.2.2.2.1, add_zero, sub_zero, sub_zero,
      ind_congr (P := o < d1 ∧ _) (Q := o < d1 ∧ a2 < d1) ⟨fun h => ⟨h.1, h.2.1⟩, fun h => ⟨h.1, h.2, l3, l2.trans h.2⟩⟩,
      ind_congr (P := o < a2 ∧ _) (Q := o < a2 ∧ a2 < d1) ⟨fun h => ⟨h.1, h.2.2.1⟩, fun h => ⟨h.1, l1, h.2, l2⟩⟩, k]
    exact ind_congr ⟨fun h => ⟨l1.trans h.1, h.2, h.1, h.2.trans l3, l2.trans h.1⟩, fun h => ⟨h.2.2.1, h.2.1⟩⟩
  · have k := key a2 d2 n2 h2.ne
    rw [ind_neg (P := o < d1 ∧ _) fun h => lt_asymm l3 h.2.2.1, ind_neg (P := o < a1 ∧ _) fun h => lt_asymm l1 h.2.1,
      ind_neg (P := o < a3 ∧ _) fun h => lt_asymm l2 h.2.2.2.1, zero_add, sub_zero, sub_zero,
      ind_congr (P := o < d2 ∧ _) (Q := o < d2 ∧ a2 < d2)
        ⟨fun h => ⟨h.1, h2⟩, fun h => ⟨h.1, l1.trans h2, l3, l2.trans h2⟩⟩,
      ind_congr (P := o < a2 ∧ _) (Q := o < a2 ∧ a2 < d2) ⟨fun h => ⟨h.1, h2⟩, fun h => ⟨h.1, l1, h2.trans l3, l2⟩⟩, k]
    exact ind_congr ⟨fun h => ⟨l1.trans h.1, h.2.trans l3, h.1, h.2, l2.trans h.1⟩, fun h => ⟨h.2.2.1, h.2.2.2.1⟩⟩
  · have k := key a3 d1 n3 m31
    rw [ind_neg (P := o < d2 ∧ _) fun h => lt_asymm l3 h.2.2.1, ind_neg (P := o < a1 ∧ _) fun h => lt_asymm l1 h.2.2.2,
      ind_neg (P := o < a2 ∧ _) fun h => lt_asymm l2 h.2.2.2, add_zero, sub_zero, sub_zero,
      ind_congr (P := o < d1 ∧ _) (Q := o < d1 ∧ a3 < d1) ⟨fun h => ⟨h.1, h.2.2.2⟩, fun h => ⟨h.1, l2.trans h.2, l3, h.2⟩⟩,
      ind_congr (P := o < a3 ∧ _) (Q := o < a3 ∧ a3 < d1) ⟨fun h => ⟨h.1, h.2.2.1⟩, fun h => ⟨h.1, l1, h.2, l2, h.2.trans l3⟩⟩, k]
    exact ind_congr ⟨fun h => ⟨l1.trans h.1, h.2, l2.trans h.1, h.2.trans l3, h.1⟩, fun h => ⟨h.2.2.2.2, h.2.1⟩⟩
  · have k := key a3 d2 n3 m32
    rw [ind_neg (P := o < d1 ∧ _) fun h => lt_asymm l3 h.2.2.1, ind_neg (P := o < a1 ∧ _) fun h => lt_asymm l1 h.2.2.2,
      ind_neg (P := o < a2 ∧ _) fun h => lt_asymm l2 h.2.2.2, zero_add, sub_zero, sub_zero,
      ind_congr (P := o < d2 ∧ _) (Q := o < d2 ∧ a3 < d2) ⟨fun h => ⟨h.1, h.2.2.2⟩, fun h => ⟨h.1, l1.trans h.2, l3, h.2⟩⟩,
      ind_congr (P := o < a3 ∧ _) (Q := o < a3 ∧ a3 < d2)
        ⟨fun h => ⟨h.1, h.2.2.2.2⟩, fun h => ⟨h.1, l1, h.2.trans l3, l2, h.2⟩⟩, k]
    exact ind_congr ⟨fun h => ⟨l1.trans h.1, h.2.trans l3, l2.trans h.1, h.2, h.1⟩, fun h => ⟨h.2.2.2.2, h.2.2.2.1⟩⟩

/-! ## One rectangle: two triangles -/

/-- The point `C + a u + b v`. (Device of the proofs.) -/
def para (C u v : Vec3) (a b : ℝ) : Vec3 :=
  ⟨C.x + a * u.x + b * v.x, C.y + a * u.y + b * v.y, C.z + a * u.z + b * v.z⟩

/-- A segment meets the plane of a rectangle with edges `u`, `v` once, at parameter `s` and in the point `C + a u + b v`, and
misses the edges and the diagonal. It crosses one of the two triangles exactly if the point lies in the rectangle. -/
theorem quad_crossing {p q C u v : Vec3} {s a b : ℝ} (h : lerp p q s = para C u v a b)
    (huniq : ∀ s' a' b', lerp p q s' = para C u v a' b' → s' = s ∧ a' = a ∧ b' = b)
    {t1 t2 : Vec3 × Vec3 × Vec3} (h1 : t1 = (para C u v 1 0, para C u v 0 1, C))
    (h2 : t2 = (para C u v 0 1, para C u v 1 0, para C u v 1 1))
    (g1 : MissesEdges p q t1) (g2 : MissesEdges p q t2)
    (hp1 : ¬ InTri t1 p) (hp2 : ¬ InTri t2 p) :
    ((crossing p q t1 + crossing p q t2 : ℤ) : ℝ) =
      ind (0 < s ∧ s ≤ 1 ∧ 0 < a ∧ a < 1 ∧ 0 < b ∧ b < 1) * (if side t1 p < side t1 q then 1 else -1) ∧
      (0 ≤ s → s ≤ 1 → 0 ≤ a → a ≤ 1 → 0 ≤ b → b ≤ 1 → 0 < a ∧ a < 1 ∧ 0 < b ∧ b < 1) := by
  have hside : side t2 p < side t2 q ↔ side t1 p < side t1 q := by
    have : side t2 q - side t2 p = side t1 q - side t1 p := by
      rw [h1, h2]; simp only [side, para]; ring
    constructor <;> intro <;> linarith
  have r1 : 0 ≤ s → s ≤ 1 → 0 ≤ a → 0 ≤ b → a + b ≤ 1 → 0 < a ∧ 0 < b ∧ a + b < 1 := by
    intro k1 k2 k3 k4 k5
    have key : ¬ (a = 0 ∨ b = 0 ∨ 1 - a - b = 0) := by
      intro k
      refine g1 s k1 k2 ⟨a, b, 1 - a - b, k3, k4, by linarith, by ring, k, ?_⟩
      rw [h, h1]; simp only [para]; ext <;> simp only <;> ring
    refine ⟨lt_of_le_of_ne k3 fun k => key (.inl k.symm), lt_of_le_of_ne k4 fun k => key (.inr (.inl k.symm)),
      lt_of_le_of_ne k5 fun k => key (.inr (.inr ?_))⟩
    linarith
  have r2 : 0 ≤ s → s ≤ 1 → a ≤ 1 → b ≤ 1 → 1 ≤ a + b → a < 1 ∧ b < 1 ∧ 1 < a + b := by
    intro k1 k2 k3 k4 k5
    have key : ¬ (1 - a = 0 ∨ 1 - b = 0 ∨ a + b - 1 = 0) := by
      intro k
      refine g2 s k1 k2 ⟨1 - a, 1 - b, a + b - 1, by linarith, by linarith, by linarith, by ring, k, ?_⟩
      rw [h, h2]; simp only [para]; ext <;> simp only <;> ring
    refine ⟨lt_of_le_of_ne k3 fun k => key (.inl ?_), lt_of_le_of_ne k4 fun k => key (.inr (.inl ?_)),
      lt_of_le_of_ne k5 fun k => key (.inr (.inr ?_))⟩ <;> linarith
  have i1 : ∀ s', InTri t1 (lerp p q s') ↔ s' = s ∧ 0 ≤ a ∧ 0 ≤ b ∧ a + b ≤ 1 := by
    intro s'
    constructor
    · rintro ⟨x, y, z, hx, hy, hz, hs, e⟩
      obtain ⟨e1, e2, e3⟩ := huniq s' x y (by
        rw [e, h1]; simp only [para]
        obtain rfl : z = 1 - x - y := by linarith
        ext <;> simp only <;> ring)
      exact ⟨e1, by linarith, by linarith, by linarith⟩
    · rintro ⟨rfl, ha, hb, hab⟩
      refine ⟨a, b, 1 - a - b, ha, hb, by linarith, by ring, ?_⟩
      rw [h, h1]; simp only [para]; ext <;> simp only <;> ring
  have i2 : ∀ s', InTri t2 (lerp p q s') ↔ s' = s ∧ a ≤ 1 ∧ b ≤ 1 ∧ 1 ≤ a + b := by
    intro s'
    constructor
    · rintro ⟨x, y, z, hx, hy, hz, hs, e⟩
      obtain ⟨e1, e2, e3⟩ := huniq s' (1 - x) (1 - y) (by
        rw [e, h2]; simp only [para]
        obtain rfl : z = 1 - x - y := by linarith
        ext <;> simp only <;> ring)
      exact ⟨e1, by linarith, by linarith, by linarith⟩
    · rintro ⟨rfl, ha, hb, hab⟩
      refine ⟨1 - a, 1 - b, a + b - 1, by linarith, by linarith, by linarith, by ring, ?_⟩
      rw [h, h2]; simp only [para]; ext <;> simp only <;> ring
  have hl0 : lerp p q 0 = p := by simp [lerp]
  refine ⟨?_, fun k1 k2 k3 k4 k5 k6 => ?_⟩
  swap
  · rcases le_total (a + b) 1 with c | c
    · obtain ⟨l1, l2, l3⟩ := r1 k1 k2 k3 k5 c
      exact ⟨l1, by linarith, l2, by linarith⟩
    · obtain ⟨l1, l2, l3⟩ := r2 k1 k2 k4 k6 c
      exact ⟨by linarith, l1, by linarith, l2⟩
  -- never at the start
  have n1 : ¬ (s = 0 ∧ 0 ≤ a ∧ 0 ≤ b ∧ a + b ≤ 1) := fun ⟨c1, c2⟩ => hp1 (hl0 ▸ (i1 0).2 ⟨c1.symm, c2⟩)
  have n2 : ¬ (s = 0 ∧ a ≤ 1 ∧ b ≤ 1 ∧ 1 ≤ a + b) := fun ⟨c1, c2⟩ => hp2 (hl0 ▸ (i2 0).2 ⟨c1.symm, c2⟩)
  have q1 : ((crossing p q t1 : ℤ) : ℝ) = ind (0 < s ∧ s ≤ 1 ∧ 0 < a ∧ 0 < b ∧ a + b < 1) *
      (if side t1 p < side t1 q then 1 else -1) := by
    unfold crossing
    split_ifs with c1 c2 c2
    · obtain ⟨s', k1, k2, k3⟩ := c1
      obtain ⟨rfl, k4, k5, k6⟩ := (i1 s').1 k3
      rw [ind_pos ⟨lt_of_le_of_ne k1 fun k => n1 ⟨k.symm, k4, k5, k6⟩, k2, r1 k1 k2 k4 k5 k6⟩]
      simp
    · obtain ⟨s', k1, k2, k3⟩ := c1
      obtain ⟨rfl, k4, k5, k6⟩ := (i1 s').1 k3
      rw [ind_pos ⟨lt_of_le_of_ne k1 fun k => n1 ⟨k.symm, k4, k5, k6⟩, k2, r1 k1 k2 k4 k5 k6⟩]
      simp
    all_goals
      rw [ind_neg, zero_mul, Int.cast_zero]
      rintro ⟨k1, k2, k3, k4, k5⟩
      exact c1 ⟨s, k1.le, k2, (i1 s).2 ⟨rfl, k3.le, k4.le, k5.le⟩⟩
  have q2 : ((crossing p q t2 : ℤ) : ℝ) = ind (0 < s ∧ s ≤ 1 ∧ a < 1 ∧ b < 1 ∧ 1 < a + b) *
      (if side t1 p < side t1 q then 1 else -1) := by
    unfold crossing
    simp only [hside]
    split_ifs with c1 c2 c2
    · obtain ⟨s', k1, k2, k3⟩ := c1
      obtain ⟨rfl, k4, k5, k6⟩ := (i2 s').1 k3
      rw [ind_pos ⟨lt_of_le_of_ne k1 fun k => n2 ⟨k.symm, k4, k5, k6⟩, k2, r2 k1 k2 k4 k5 k6⟩]
      simp
    · obtain ⟨s', k1, k2, k3⟩ := c1
      obtain ⟨rfl, k4, k5, k6⟩ := (i2 s').1 k3
      rw [ind_pos ⟨lt_of_le_of_ne k1 fun k => n2 ⟨k.symm, k4, k5, k6⟩, k2, r2 k1 k2 k4 k5 k6⟩]
      simp
    all_goals
      rw [ind_neg, zero_mul, Int.cast_zero]
      rintro ⟨k1, k2, k3, k4, k5⟩
      exact c1 ⟨s, k1.le, k2, (i2 s).2 ⟨rfl, k3.le, k4.le, k5.le⟩⟩
  rw [Int.cast_add, q1, q2, ← add_mul]
  congr 1
  rcases lt_trichotomy (a + b) 1 with c | c | c
  · rw [ind_neg (P := _ ∧ _ ∧ a < 1 ∧ b < 1 ∧ 1 < a + b) fun k => by linarith [k.2.2.2.2], add_zero]
    exact ind_congr ⟨fun ⟨k1, k2, k3, k4, k5⟩ => ⟨k1, k2, k3, by linarith, k4, by linarith⟩,
      fun ⟨k1, k2, k3, k4, k5, k6⟩ => ⟨k1, k2, k3, k5, c⟩⟩
  · rw [ind_neg (P := _ ∧ _ ∧ 0 < a ∧ 0 < b ∧ a + b < 1) fun k => by linarith [k.2.2.2.2],
      ind_neg (P := _ ∧ _ ∧ a < 1 ∧ b < 1 ∧ 1 < a + b) fun k => by linarith [k.2.2.2.2], ind_neg, add_zero]
    rintro ⟨k1, k2, k3, k4, k5, k6⟩
    linarith [(r1 k1.le k2 k3.le k5.le c.le).2.2]
  · rw [ind_neg (P := _ ∧ _ ∧ 0 < a ∧ 0 < b ∧ a + b < 1) fun k => by linarith [k.2.2.2.2], zero_add]
    exact ind_congr ⟨fun ⟨k1, k2, k3, k4, k5⟩ => ⟨k1, k2, by linarith, k3, by linarith, k4⟩,
      fun ⟨k1, k2, k3, k4, k5, k6⟩ => ⟨k1, k2, k4, k6, c⟩⟩

/-! ## The faces of a height map -/

/-- When the probe from `p` to `(d, 0, 0)` meets the line `x = res i`. (Device of the proofs.) -/
noncomputable def tx (res d : ℝ) (p : Vec3) (i : ℕ) : ℝ := (res * i - p.x) / (d - p.x)
/-- When it meets the line `y = res j`. (Device of the proofs.) -/
noncomputable def ty (res : ℝ) (p : Vec3) (j : ℕ) : ℝ := 1 - res * j / p.y
/-- When it meets the height `h`. (Device of the proofs.) -/
noncomputable def tz (p : Vec3) (h : ℝ) : ℝ := 1 - h / p.z

/-- The probe meets the line `x = res i` beside the cell with number `j`, below `h`. (Device of the proofs.) -/
noncomputable def hitX (res d : ℝ) (p : Vec3) (i j : ℕ) (h : ℝ) : ℝ :=
  ind (0 < tx res d p i ∧ ty res p (j + 1) < tx res d p i ∧ tx res d p i ≤ ty res p j ∧ tz p h < tx res d p i)
/-- The probe meets the line `y = res j` beside the cell with number `i`, below `h`. (Device of the proofs.) -/
noncomputable def hitY (res d : ℝ) (p : Vec3) (i j : ℕ) (h : ℝ) : ℝ :=
  ind (0 < ty res p j ∧ tx res d p i ≤ ty res p j ∧ ty res p j < tx res d p (i + 1) ∧ tz p h < ty res p j)
/-- The probe meets the height `h` over the cell. (Device of the proofs.) -/
noncomputable def hitZ (res d : ℝ) (p : Vec3) (i j : ℕ) (h : ℝ) : ℝ :=
  ind (0 < tz p h ∧ tx res d p i ≤ tz p h ∧ tz p h < tx res d p (i + 1) ∧ ty res p (j + 1) ≤ tz p h ∧ tz p h < ty res p j)

/-- Cells beside each other, from smaller to larger times. -/
theorem sum_up (P : Prop) (t : ℝ) (f : ℕ → ℝ) (hf : StrictMono f) {a b : ℕ} (h : a ≤ b) :
    ∑ i ∈ Finset.Ico a b, ind (P ∧ f i ≤ t ∧ t < f (i + 1)) = ind (P ∧ f a ≤ t ∧ t < f b) := by
  induction b, h using Nat.le_induction with
  | base => rw [Finset.Ico_self, Finset.sum_empty, ind_neg]; rintro ⟨-, h1, h2⟩; linarith
  | succ b hb ih =>
    rw [Finset.sum_Ico_succ_top hb, ih]
    have h1 : f a ≤ f b := hf.monotone hb
    have h2 : f b < f (b + 1) := hf (Nat.lt_succ_self b)
    rcases lt_or_ge t (f b) with c | c
    · rw [ind_neg (P := P ∧ f b ≤ t ∧ _) fun k => by linarith [k.2.1], add_zero]
      exact ind_congr ⟨fun k => ⟨k.1, k.2.1, by linarith [k.2.2]⟩, fun k => ⟨k.1, k.2.1, c⟩⟩
    · rw [ind_neg (P := P ∧ f a ≤ t ∧ _) fun k => by linarith [k.2.2], zero_add]
      exact ind_congr ⟨fun k => ⟨k.1, by linarith [k.2.1], k.2.2⟩, fun k => ⟨k.1, c, k.2.2⟩⟩

/-- The same from larger to smaller times, with the ends closed on the other side. -/
theorem sum_down (P : Prop) (t : ℝ) (f : ℕ → ℝ) (hf : StrictAnti f) {a b : ℕ} (h : a ≤ b) :
    ∑ i ∈ Finset.Ico a b, ind (P ∧ f (i + 1) < t ∧ t ≤ f i) = ind (P ∧ f b < t ∧ t ≤ f a) := by
  induction b, h using Nat.le_induction with
  | base => rw [Finset.Ico_self, Finset.sum_empty, ind_neg]; rintro ⟨-, h1, h2⟩; linarith
  | succ b hb ih =>
    rw [Finset.sum_Ico_succ_top hb, ih]
    have h1 : f b ≤ f a := hf.antitone hb
    have h2 : f (b + 1) < f b := hf (Nat.lt_succ_self b)
    rcases lt_or_ge (f b) t with c | c
    · rw [ind_neg (P := P ∧ f (b + 1) < t ∧ _) fun k => by linarith [k.2.2], add_zero]
      exact ind_congr ⟨fun k => ⟨k.1, by linarith [k.2.1], k.2.2⟩, fun k => ⟨k.1, c, k.2.2⟩⟩
    · rw [ind_neg (P := P ∧ f b < t ∧ _) fun k => by linarith [k.2.1], zero_add]
      exact ind_congr ⟨fun k => ⟨k.1, k.2.1, by linarith [k.2.2]⟩, fun k => ⟨k.1, k.2.1, c⟩⟩

theorem tx_mono {res d : ℝ} {p : Vec3} (hr : 0 < res) (hd : p.x < d) : StrictMono (tx res d p) := by
  intro i j h
  unfold tx
  have : (i:ℝ) < j := by exact_mod_cast h
  exact div_lt_div_of_pos_right (by nlinarith) (by linarith)

theorem ty_anti {res : ℝ} {p : Vec3} (hr : 0 < res) (hy : 0 < p.y) : StrictAnti (ty res p) := by
  intro i j h
  unfold ty
  have : (i:ℝ) < j := by exact_mod_cast h
  have := div_lt_div_of_pos_right (mul_lt_mul_of_pos_left this hr) hy
  linarith

/-- Where the probe is at the time it meets a line. -/
theorem x_at {res d : ℝ} {p : Vec3} (hd : p.x < d) (i : ℕ) : p.x + tx res d p i * (d - p.x) = res * i := by
  unfold tx
  rw [div_mul_cancel₀ _ (by linarith)]; ring

theorem x_ge {res d : ℝ} {p : Vec3} (hd : p.x < d) (i : ℕ) (s : ℝ) :
    (res * i ≤ p.x + s * (d - p.x) ↔ tx res d p i ≤ s) ∧ (res * i < p.x + s * (d - p.x) ↔ tx res d p i < s) ∧
    (p.x + s * (d - p.x) < res * i ↔ s < tx res d p i) := by
  unfold tx
  rw [div_le_iff₀ (by linarith), div_lt_iff₀ (by linarith), lt_div_iff₀ (by linarith)]
  refine ⟨?_, ?_, ?_⟩ <;> constructor <;> intro <;> linarith

theorem y_ge {res : ℝ} {p : Vec3} (hy : 0 < p.y) (j : ℕ) (s : ℝ) :
    (res * j ≤ p.y + s * (0 - p.y) ↔ s ≤ ty res p j) ∧ (res * j < p.y + s * (0 - p.y) ↔ s < ty res p j) ∧
    (p.y + s * (0 - p.y) < res * j ↔ ty res p j < s) ∧ (p.y + s * (0 - p.y) = res * j ↔ s = ty res p j) := by
  have e : res * j = (1 - ty res p j) * p.y := by unfold ty; field_simp; ring
  rw [e]
  refine ⟨?_, ?_, ?_, ?_⟩ <;> constructor <;> intro h
  · nlinarith
  · nlinarith
  · nlinarith
  · nlinarith
  · nlinarith
  · nlinarith
  · have : (s - ty res p j) * p.y = 0 := by linarith
    rcases mul_eq_zero.1 this with k | k <;> linarith
  · rw [h]; ring

theorem z_ge {p : Vec3} (hz : 0 < p.z) (h s : ℝ) :
    (h < p.z + s * (0 - p.z) ↔ s < tz p h) ∧ (p.z + s * (0 - p.z) < h ↔ tz p h < s) ∧
    (p.z + s * (0 - p.z) = h ↔ s = tz p h) := by
  have e : h = (1 - tz p h) * p.z := by unfold tz; field_simp; ring
  generalize tz p h = t at *
  subst e
  refine ⟨?_, ?_, ?_⟩ <;> constructor <;> intro h
  · nlinarith
  · nlinarith
  · nlinarith
  · nlinarith
  · have : (s - t) * p.z = 0 := by linarith
    rcases mul_eq_zero.1 this with k | k <;> linarith
  · rw [h]; ring

theorem tz_lt {p : Vec3} (hz : 0 < p.z) (h h2 : ℝ) : h < h2 ↔ tz p h2 < tz p h := by
  unfold tz
  rw [← sub_pos, ← sub_pos (b := 1 - h2 / p.z), show 1 - h / p.z - (1 - h2 / p.z) = (h2 - h) / p.z by ring,
    div_pos_iff_of_pos_right hz]

theorem z_of_le {p : Vec3} (hz : 0 < p.z) {h s : ℝ} (k : s ≤ tz p h) : h ≤ p.z + s * (0 - p.z) :=
  not_lt.1 fun c => not_lt.2 k ((z_ge hz h s).2.1.1 c)

theorem y_of_ge {res : ℝ} {p : Vec3} (hy : 0 < p.y) {j : ℕ} {s : ℝ} (k : ty res p j ≤ s) : p.y + s * (0 - p.y) ≤ res * j :=
  not_lt.1 fun c => not_lt.2 k ((y_ge hy j s).2.1.1 c)

/-- A wall between two heights, met at time `s`, as a difference of what is below them. -/
theorem wall_times (P : Prop) (s u v : ℝ) :
    ind (P ∧ ((v < s ∧ s ≤ u) ∨ (u < s ∧ s ≤ v))) * (if v < u then 1 else -1) = ind (P ∧ v < s) - ind (P ∧ u < s) := by
  by_cases hP : P
  · have e : ∀ Q, ind (P ∧ Q) = ind Q := fun Q => ind_congr ⟨fun k => k.2, fun k => ⟨hP, k⟩⟩
    rw [e, e, e]
    rcases le_or_gt s u with k1 | k1 <;> rcases le_or_gt s v with k2 | k2
    · rw [ind_neg (P := _ ∨ _), ind_neg (P := v < s) (by linarith), ind_neg (P := u < s) (by linarith)]
      · norm_num
      · rintro (k | k) <;> linarith [k.1, k.2]
    · rw [ind_pos (.inl ⟨k2, k1⟩), ind_pos k2, ind_neg (P := u < s) (by linarith), if_pos (by linarith)]; norm_num
    · rw [ind_pos (.inr ⟨k1, k2⟩), ind_neg (P := v < s) (by linarith), ind_pos k1, if_neg (by linarith)]; norm_num
    · rw [ind_neg (P := _ ∨ _), ind_pos k2, ind_pos k1]
      · norm_num
      · rintro (k | k) <;> linarith [k.1, k.2]
  · rw [ind_neg fun k => hP k.1, ind_neg fun k => hP k.1, ind_neg fun k => hP k.1]; norm_num

/-- The signed crossings of a probe with a rectangle. (Device of the proofs.) -/
noncomputable def faceHits (res : ℝ) (p q : Vec3) (f : Face) : ℤ := ((f.tris res).map (crossing p q)).sum

/-- Position of a number between two others. -/
theorem between {h h2 z b : ℝ} (hne : h ≠ h2) (hz : z = h + b * (h2 - h)) :
    (0 < b ∧ b < 1) ↔ ((h < z ∧ z < h2) ∨ (h2 < z ∧ z < h)) := by
  rcases lt_or_gt_of_ne hne with c | c
  · constructor
    · rintro ⟨k1, k2⟩; left; constructor <;> nlinarith
    · rintro (⟨k1, k2⟩ | ⟨k1, k2⟩)
      · constructor
        · by_contra k; nlinarith
        · by_contra k; nlinarith
      · linarith
  · constructor
    · rintro ⟨k1, k2⟩; right; constructor <;> nlinarith
    · rintro (⟨k1, k2⟩ | ⟨k1, k2⟩)
      · linarith
      · constructor
        · by_contra k; nlinarith
        · by_contra k; nlinarith

theorem between_le {h h2 z b : ℝ} (hz : z = h + b * (h2 - h)) (hne : h ≠ h2)
    (k : (h ≤ z ∧ z ≤ h2) ∨ (h2 ≤ z ∧ z ≤ h)) : 0 ≤ b ∧ b ≤ 1 := by
  rcases lt_or_gt_of_ne hne with c | c
  · rcases k with k | k
    · constructor
      · by_contra k; nlinarith
      · by_contra k; nlinarith
    · linarith
  · rcases k with k | k
    · linarith
    · constructor
      · by_contra k; nlinarith
      · by_contra k; nlinarith

theorem hits_wallX {res d : ℝ} {p : Vec3} (hr : 0 < res) (hd : p.x < d) (hy : 0 < p.y) (hz : 0 < p.z) {x y0 y1 : ℕ} {h h2 : ℝ}
    (hy01 : y0 < y1) (hne : h ≠ h2)
    (hg : ∀ t ∈ (Face.wallX x y0 y1 h h2).tris res, MissesEdges p ⟨d, 0, 0⟩ t)
    (hp : ∀ t ∈ (Face.wallX x y0 y1 h h2).tris res, ¬ InTri t p) :
    (faceHits res p ⟨d, 0, 0⟩ (.wallX x y0 y1 h h2) : ℝ) =
      ∑ y ∈ Finset.Ico y0 y1, (hitX res d p x y h2 - hitX res d p x y h) := by
  have c01 : (0:ℝ) < (y1:ℝ) - y0 := by
    have : (y0:ℝ) < y1 := by exact_mod_cast hy01
    linarith
  have hw : (0:ℝ) < res * (y1 - y0) := mul_pos hr c01
  have hh : h2 - h ≠ 0 := sub_ne_zero.2 hne.symm
  set s := tx res d p x with hs
  have hX := x_at (res := res) hd x
  set Y := p.y + s * (0 - p.y) with hY
  set Z := p.z + s * (0 - p.z) with hZ
  set a := (Y - res * y0) / (res * (y1 - y0)) with ha
  set b := (Z - h) / (h2 - h) with hb
  have eY : Y = res * y0 + a * (res * (y1 - y0)) := by rw [ha, div_mul_cancel₀ _ hw.ne']; ring
  have eZ : Z = h + b * (h2 - h) := by rw [hb, div_mul_cancel₀ _ hh]; ring
  simp only [Face.tris, List.mem_cons, List.not_mem_nil, or_false, forall_eq_or_imp, forall_eq] at hg hp
  obtain ⟨key, hin⟩ := quad_crossing (p := p) (q := ⟨d, 0, 0⟩) (C := ⟨res * x, res * y0, h⟩)
    (u := ⟨0, res * (y1 - y0), 0⟩) (v := ⟨0, 0, h2 - h⟩) (s := s) (a := a) (b := b)
    (by
      simp only [lerp, para]
      rw [hX]
      ext <;> simp only
      · ring
      · rw [← hY, eY]; ring
      · rw [← hZ, eZ]; ring)
    (by
      intro s' a' b' e
      simp only [lerp, para, Vec3.mk.injEq] at e
      obtain ⟨e1, e2, e3⟩ := e
      have es : s' = s := by
        have : (s' - s) * (d - p.x) = 0 := by rw [sub_mul]; linarith
        rcases mul_eq_zero.1 this with k | k <;> linarith
      subst es
      refine ⟨rfl, ?_, ?_⟩
      · have : (a' - a) * (res * (y1 - y0)) = 0 := by
          rw [← hY, eY] at e2; linarith
        rcases mul_eq_zero.1 this with k | k <;> linarith
      · have : (b' - b) * (h2 - h) = 0 := by
          rw [← hZ, eZ] at e3; linarith
        rcases mul_eq_zero.1 this with k | k
        · linarith
        · exact absurd k hh)
    (t1 := (⟨res * x, res * y1, h⟩, ⟨res * x, res * y0, h2⟩, ⟨res * x, res * y0, h⟩))
    (t2 := (⟨res * x, res * y0, h2⟩, ⟨res * x, res * y1, h⟩, ⟨res * x, res * y1, h2⟩))
    (by simp only [para, Prod.mk.injEq, Vec3.mk.injEq]; refine ⟨⟨?_, ?_, ?_⟩, ⟨?_, ?_, ?_⟩, trivial⟩ <;> ring)
    (by simp only [para, Prod.mk.injEq, Vec3.mk.injEq]; refine ⟨⟨?_, ?_, ?_⟩, ⟨?_, ?_, ?_⟩, ?_, ?_, ?_⟩ <;> ring)
    hg.1 hg.2 hp.1 hp.2
  have eside : (side (⟨res * x, res * y1, h⟩, ⟨res * x, res * y0, h2⟩, ⟨res * x, res * y0, h⟩) p <
      side (⟨res * x, res * y1, h⟩, ⟨res * x, res * y0, h2⟩, ⟨res * x, res * y0, h⟩) ⟨d, 0, 0⟩) ↔ h < h2 := by
    have e : side (⟨res * x, res * y1, h⟩, ⟨res * x, res * y0, h2⟩, ⟨res * x, res * y0, h⟩) ⟨d, 0, 0⟩ -
        side (⟨res * x, res * y1, h⟩, ⟨res * x, res * y0, h2⟩, ⟨res * x, res * y0, h⟩) p =
        (h2 - h) * (res * (y1 - y0) * (d - p.x)) := by simp only [side]; ring
    have hpos : 0 < res * (y1 - y0) * (d - p.x) := mul_pos hw (by linarith)
    constructor
    · intro k
      by_contra kk
      have := mul_nonpos_of_nonpos_of_nonneg (show h2 - h ≤ 0 by linarith) hpos.le
      linarith
    · intro k
      have := mul_pos (show 0 < h2 - h by linarith) hpos
      linarith
  have e0 : (faceHits res p ⟨d, 0, 0⟩ (.wallX x y0 y1 h h2) : ℝ) =
      ((crossing p ⟨d, 0, 0⟩ (⟨res * x, res * y1, h⟩, ⟨res * x, res * y0, h2⟩, ⟨res * x, res * y0, h⟩) +
        crossing p ⟨d, 0, 0⟩ (⟨res * x, res * y0, h2⟩, ⟨res * x, res * y1, h⟩, ⟨res * x, res * y1, h2⟩) : ℤ) : ℝ) := by
    simp [faceHits, Face.tris]
  rw [e0, key, Finset.sum_sub_distrib]
  have sum : ∀ k, ∑ y ∈ Finset.Ico y0 y1, hitX res d p x y k =
      ind ((0 < s ∧ tz p k < s) ∧ ty res p y1 < s ∧ s ≤ ty res p y0) := by
    intro k
    rw [← sum_down _ _ _ (ty_anti hr hy) hy01.le]
    refine Finset.sum_congr rfl fun y _ => ind_congr ?_
    rw [← hs]
    exact ⟨fun ⟨k1, k2, k3, k4⟩ => ⟨⟨k1, k4⟩, k2, k3⟩, fun ⟨⟨k1, k4⟩, k2, k3⟩ => ⟨k1, k2, k3, k4⟩⟩
  rw [sum, sum]
  have hy0 := y_ge (res := res) hy y0 s
  have hy1 := y_ge (res := res) hy y1 s
  rw [← hY] at hy0 hy1
  have hz0 := z_ge hz h s
  have hz1 := z_ge hz h2 s
  rw [← hZ] at hz0 hz1
  have hlt : ty res p y1 < ty res p y0 := ty_anti (res := res) hr hy hy01
  have hA : 0 < a ∧ a < 1 → ty res p y1 < s ∧ s ≤ ty res p y0 := by
    rw [between (h := res * y0) (h2 := res * y1) (z := Y) (by intro k; nlinarith) (by rw [eY]; ring)]
    rintro (k | k)
    · exact ⟨hy1.2.2.1.1 k.2, (hy0.2.1.1 k.1).le⟩
    · have k1 := hy1.2.1.1 k.1
      have k2 := hy0.2.2.1.1 k.2
      linarith
  have hA' : ty res p y1 < s ∧ s ≤ ty res p y0 → 0 ≤ a ∧ a ≤ 1 := fun k =>
    between_le (h := res * y0) (h2 := res * y1) (z := Y) (by rw [eY]; ring) (by intro k; nlinarith)
      (.inl ⟨hy0.1.2 k.2, (hy1.2.2.1.2 k.1).le⟩)
  have hB : 0 < b ∧ b < 1 → (tz p h2 < s ∧ s ≤ tz p h) ∨ (tz p h < s ∧ s ≤ tz p h2) := by
    rw [between hne eZ]
    rintro (k | k)
    · exact .inl ⟨hz1.2.1.1 k.2, (hz0.1.1 k.1).le⟩
    · exact .inr ⟨hz0.2.1.1 k.2, (hz1.1.1 k.1).le⟩
  have hB' : (tz p h2 < s ∧ s ≤ tz p h) ∨ (tz p h < s ∧ s ≤ tz p h2) → 0 ≤ b ∧ b ≤ 1 := by
    intro k
    refine between_le eZ hne ?_
    rcases k with k | k
    · exact .inl ⟨z_of_le hz k.2, (hz1.2.1.2 k.1).le⟩
    · exact .inr ⟨z_of_le hz k.2, (hz0.2.1.2 k.1).le⟩
  have hs1 : s ≤ ty res p y0 → s ≤ 1 := by
    intro k
    have : ty res p y0 ≤ 1 := by unfold ty; have := div_nonneg (mul_nonneg hr.le (Nat.cast_nonneg (α := ℝ) y0)) hy.le; linarith
    linarith
  rw [if_congr eside rfl rfl, if_congr (tz_lt hz h h2) rfl rfl,
    ind_congr (Q := (0 < s ∧ ty res p y1 < s ∧ s ≤ ty res p y0) ∧ ((tz p h2 < s ∧ s ≤ tz p h) ∨ (tz p h < s ∧ s ≤ tz p h2)))
      ⟨fun ⟨k1, _, k3, k4, k5, k6⟩ => ⟨⟨k1, hA ⟨k3, k4⟩⟩, hB ⟨k5, k6⟩⟩,
        fun ⟨⟨k1, k2⟩, k3⟩ => ⟨k1, hs1 k2.2, hin k1.le (hs1 k2.2) (hA' k2).1 (hA' k2).2 (hB' k3).1 (hB' k3).2⟩⟩,
    wall_times]
  congr 1 <;> exact ind_congr ⟨fun k => ⟨⟨k.1.1, k.2⟩, k.1.2⟩, fun k => ⟨⟨k.1.1, k.2⟩, k.1.2⟩⟩

theorem hits_wallY {res d : ℝ} {p : Vec3} (hr : 0 < res) (hd : p.x < d) (hy : 0 < p.y) (hz : 0 < p.z) {y x0 x1 : ℕ} {h h2 : ℝ}
    (hx01 : x0 < x1) (hne : h ≠ h2)
    (hg : ∀ t ∈ (Face.wallY y x0 x1 h h2).tris res, MissesEdges p ⟨d, 0, 0⟩ t)
    (hp : ∀ t ∈ (Face.wallY y x0 x1 h h2).tris res, ¬ InTri t p) :
    (faceHits res p ⟨d, 0, 0⟩ (.wallY y x0 x1 h h2) : ℝ) =
      ∑ x ∈ Finset.Ico x0 x1, (hitY res d p x y h - hitY res d p x y h2) := by
  have c01 : (0:ℝ) < (x1:ℝ) - x0 := by
    have : (x0:ℝ) < x1 := by exact_mod_cast hx01
    linarith
  have hw : (0:ℝ) < res * (x1 - x0) := mul_pos hr c01
  have hh : h2 - h ≠ 0 := sub_ne_zero.2 hne.symm
  set s := ty res p y with hs
  have hY := ((y_ge (res := res) hy y s).2.2.2).2 hs
  set X := p.x + s * (d - p.x) with hX
  set Z := p.z + s * (0 - p.z) with hZ
  set a := (Z - h) / (h2 - h) with ha
  set b := (X - res * x0) / (res * (x1 - x0)) with hb
  have eX : X = res * x0 + b * (res * (x1 - x0)) := by rw [hb, div_mul_cancel₀ _ hw.ne']; ring
  have eZ : Z = h + a * (h2 - h) := by rw [ha, div_mul_cancel₀ _ hh]; ring
  simp only [Face.tris, List.mem_cons, List.not_mem_nil, or_false, forall_eq_or_imp, forall_eq] at hg hp
  obtain ⟨key, hin⟩ := quad_crossing (p := p) (q := ⟨d, 0, 0⟩) (C := ⟨res * x0, res * y, h⟩)
    (u := ⟨0, 0, h2 - h⟩) (v := ⟨res * (x1 - x0), 0, 0⟩) (s := s) (a := a) (b := b)
    (by
      simp only [lerp, para]
      rw [hY]
      ext <;> simp only
      · rw [← hX, eX]; ring
      · ring
      · rw [← hZ, eZ]; ring)
    (by
      intro s' a' b' e
      simp only [lerp, para, Vec3.mk.injEq] at e
      obtain ⟨e1, e2, e3⟩ := e
      have es : s' = s := by
        have : (s' - s) * (0 - p.y) = 0 := by rw [sub_mul]; linarith
        rcases mul_eq_zero.1 this with k | k <;> linarith
      subst es
      refine ⟨rfl, ?_, ?_⟩
      · have : (a' - a) * (h2 - h) = 0 := by
          rw [← hZ, eZ] at e3; linarith
        rcases mul_eq_zero.1 this with k | k
        · linarith
        · exact absurd k hh
      · have : (b' - b) * (res * (x1 - x0)) = 0 := by
          rw [← hX, eX] at e1; linarith
        rcases mul_eq_zero.1 this with k | k <;> linarith)
    (t1 := (⟨res * x0, res * y, h2⟩, ⟨res * x1, res * y, h⟩, ⟨res * x0, res * y, h⟩))
    (t2 := (⟨res * x1, res * y, h⟩, ⟨res * x0, res * y, h2⟩, ⟨res * x1, res * y, h2⟩))
    (by simp only [para, Prod.mk.injEq, Vec3.mk.injEq]; refine ⟨⟨?_, ?_, ?_⟩, ⟨?_, ?_, ?_⟩, trivial⟩ <;> ring)
    (by simp only [para, Prod.mk.injEq, Vec3.mk.injEq]; refine ⟨⟨?_, ?_, ?_⟩, ⟨?_, ?_, ?_⟩, ?_, ?_, ?_⟩ <;> ring)
    hg.1 hg.2 hp.1 hp.2
  have eside : (side (⟨res * x0, res * y, h2⟩, ⟨res * x1, res * y, h⟩, ⟨res * x0, res * y, h⟩) p <
      side (⟨res * x0, res * y, h2⟩, ⟨res * x1, res * y, h⟩, ⟨res * x0, res * y, h⟩) ⟨d, 0, 0⟩) ↔ h2 < h := by
    have e : side (⟨res * x0, res * y, h2⟩, ⟨res * x1, res * y, h⟩, ⟨res * x0, res * y, h⟩) ⟨d, 0, 0⟩ -
        side (⟨res * x0, res * y, h2⟩, ⟨res * x1, res * y, h⟩, ⟨res * x0, res * y, h⟩) p =
        (h - h2) * (res * (x1 - x0) * p.y) := by simp only [side]; ring
    have hpos : 0 < res * (x1 - x0) * p.y := mul_pos hw hy
    constructor
    · intro k
      by_contra kk
      have := mul_nonpos_of_nonpos_of_nonneg (show h - h2 ≤ 0 by linarith) hpos.le
      linarith
    · intro k
      have := mul_pos (show 0 < h - h2 by linarith) hpos
      linarith
  have e0 : (faceHits res p ⟨d, 0, 0⟩ (.wallY y x0 x1 h h2) : ℝ) =
      ((crossing p ⟨d, 0, 0⟩ (⟨res * x0, res * y, h2⟩, ⟨res * x1, res * y, h⟩, ⟨res * x0, res * y, h⟩) +
        crossing p ⟨d, 0, 0⟩ (⟨res * x1, res * y, h⟩, ⟨res * x0, res * y, h2⟩, ⟨res * x1, res * y, h2⟩) : ℤ) : ℝ) := by
    simp [faceHits, Face.tris]
  rw [e0, key, Finset.sum_sub_distrib]
  have sum : ∀ k, ∑ x ∈ Finset.Ico x0 x1, hitY res d p x y k =
      ind ((0 < s ∧ tz p k < s) ∧ tx res d p x0 ≤ s ∧ s < tx res d p x1) := by
    intro k
    rw [← sum_up _ _ _ (tx_mono hr hd) hx01.le]
    refine Finset.sum_congr rfl fun x _ => ind_congr ?_
    rw [← hs]
    exact ⟨fun ⟨k1, k2, k3, k4⟩ => ⟨⟨k1, k4⟩, k2, k3⟩, fun ⟨⟨k1, k4⟩, k2, k3⟩ => ⟨k1, k2, k3, k4⟩⟩
  rw [sum, sum]
  have hx0 := x_ge (res := res) hd x0 s
  have hx1 := x_ge (res := res) hd x1 s
  rw [← hX] at hx0 hx1
  have hz0 := z_ge hz h s
  have hz1 := z_ge hz h2 s
  rw [← hZ] at hz0 hz1
  have hlt : tx res d p x0 < tx res d p x1 := tx_mono (res := res) hr hd hx01
  have hB : 0 < b ∧ b < 1 → tx res d p x0 ≤ s ∧ s < tx res d p x1 := by
    rw [between (h := res * x0) (h2 := res * x1) (z := X) (by intro k; nlinarith) (by rw [eX]; ring)]
    rintro (k | k)
    · exact ⟨(hx0.2.1.1 k.1).le, hx1.2.2.1 k.2⟩
    · have k1 := hx1.2.1.1 k.1
      have k2 := hx0.2.2.1 k.2
      linarith
  have hB' : tx res d p x0 ≤ s ∧ s < tx res d p x1 → 0 ≤ b ∧ b ≤ 1 := fun k =>
    between_le (h := res * x0) (h2 := res * x1) (z := X) (by rw [eX]; ring) (by intro k; nlinarith)
      (.inl ⟨hx0.1.2 k.1, (hx1.2.2.2 k.2).le⟩)
  have hA : 0 < a ∧ a < 1 → (tz p h < s ∧ s ≤ tz p h2) ∨ (tz p h2 < s ∧ s ≤ tz p h) := by
    rw [between hne eZ]
    rintro (k | k)
    · exact .inr ⟨hz1.2.1.1 k.2, (hz0.1.1 k.1).le⟩
    · exact .inl ⟨hz0.2.1.1 k.2, (hz1.1.1 k.1).le⟩
  have hA' : (tz p h < s ∧ s ≤ tz p h2) ∨ (tz p h2 < s ∧ s ≤ tz p h) → 0 ≤ a ∧ a ≤ 1 := by
    intro k
    refine between_le eZ hne ?_
    rcases k with k | k
    · exact .inr ⟨z_of_le hz k.2, (hz0.2.1.2 k.1).le⟩
    · exact .inl ⟨z_of_le hz k.2, (hz1.2.1.2 k.1).le⟩
  have hs1 : s ≤ 1 := by
    rw [hs]; unfold ty
    have := div_nonneg (mul_nonneg hr.le (Nat.cast_nonneg (α := ℝ) y)) hy.le
    linarith
  rw [if_congr eside rfl rfl, if_congr (tz_lt hz h2 h) rfl rfl,
    ind_congr (Q := (0 < s ∧ tx res d p x0 ≤ s ∧ s < tx res d p x1) ∧ ((tz p h < s ∧ s ≤ tz p h2) ∨ (tz p h2 < s ∧ s ≤ tz p h)))
      ⟨fun ⟨k1, _, k3, k4, k5, k6⟩ => ⟨⟨k1, hB ⟨k5, k6⟩⟩, hA ⟨k3, k4⟩⟩,
        fun ⟨⟨k1, k2⟩, k3⟩ => ⟨k1, hs1, hin k1.le hs1 (hA' k3).1 (hA' k3).2 (hB' k2).1 (hB' k2).2⟩⟩,
    wall_times]
  congr 1 <;> exact ind_congr ⟨fun k => ⟨⟨k.1.1, k.2⟩, k.1.2⟩, fun k => ⟨⟨k.1.1, k.2⟩, k.1.2⟩⟩

/-- From larger to smaller times, with the ends closed on the same side as in `sum_up`. -/
theorem sum_down' (P : Prop) (t : ℝ) (f : ℕ → ℝ) (hf : StrictAnti f) {a b : ℕ} (h : a ≤ b) :
    ∑ i ∈ Finset.Ico a b, ind (P ∧ f (i + 1) ≤ t ∧ t < f i) = ind (P ∧ f b ≤ t ∧ t < f a) := by
  induction b, h using Nat.le_induction with
  | base => rw [Finset.Ico_self, Finset.sum_empty, ind_neg]; rintro ⟨-, h1, h2⟩; linarith
  | succ b hb ih =>
    rw [Finset.sum_Ico_succ_top hb, ih]
    have h1 : f b ≤ f a := hf.antitone hb
    have h2 : f (b + 1) < f b := hf (Nat.lt_succ_self b)
    rcases le_or_gt (f b) t with c | c
    · rw [ind_neg (P := P ∧ f (b + 1) ≤ t ∧ _) fun k => by linarith [k.2.2], add_zero]
      exact ind_congr ⟨fun k => ⟨k.1, by linarith [k.2.1], k.2.2⟩, fun k => ⟨k.1, c, k.2.2⟩⟩
    · rw [ind_neg (P := P ∧ f b ≤ t ∧ _) fun k => by linarith [k.2.1], zero_add]
      exact ind_congr ⟨fun k => ⟨k.1, k.2.1, by linarith [k.2.2]⟩, fun k => ⟨k.1, k.2.1, c⟩⟩

theorem inTri_rot {a b c x : Vec3} (h : InTri (b, c, a) x) : InTri (a, b, c) x := by
  obtain ⟨u, v, w, hu, hv, hw, hs, e⟩ := h
  refine ⟨w, u, v, hw, hu, hv, by linarith, ?_⟩
  rw [e]; ext <;> simp only <;> ring

theorem crossing_rot (p q a b c : Vec3) : crossing p q (a, b, c) = crossing p q (b, c, a) := by
  have e : ∀ x, side (a, b, c) x = side (b, c, a) x := by intro x; simp only [side]; ring
  have i : ∀ x, InTri (a, b, c) x ↔ InTri (b, c, a) x := fun x =>
    ⟨fun h => inTri_rot (inTri_rot h), inTri_rot⟩
  unfold crossing
  simp only [e]
  by_cases h : ∃ s : ℝ, 0 ≤ s ∧ s ≤ 1 ∧ InTri (a, b, c) (lerp p q s)
  · have h' : ∃ s : ℝ, 0 ≤ s ∧ s ≤ 1 ∧ InTri (b, c, a) (lerp p q s) := by
      obtain ⟨s, h1, h2, h3⟩ := h
      exact ⟨s, h1, h2, (i _).1 h3⟩
    rw [if_pos h, if_pos h']
  · have h' : ¬ ∃ s : ℝ, 0 ≤ s ∧ s ≤ 1 ∧ InTri (b, c, a) (lerp p q s) := by
      rintro ⟨s, h1, h2, h3⟩
      exact h ⟨s, h1, h2, (i _).2 h3⟩
    rw [if_neg h, if_neg h']

theorem misses_rot {p q a b c : Vec3} (h : MissesEdges p q (a, b, c)) : MissesEdges p q (b, c, a) := by
  rintro s h0 h1 ⟨u, v, w, hu, hv, hw, hs, hz, e⟩
  refine h s h0 h1 ⟨w, u, v, hw, hu, hv, by linarith, ?_, ?_⟩
  · rcases hz with k | k | k
    · exact .inr (.inl k)
    · exact .inr (.inr k)
    · exact .inl k
  · rw [e]; ext <;> simp only <;> ring

theorem hits_top {res d : ℝ} {p : Vec3} (hr : 0 < res) (hd : p.x < d) (hy : 0 < p.y) (hz : 0 < p.z) {x0 y0 x1 y1 : ℕ} {h : ℝ}
    (hx01 : x0 < x1) (hy01 : y0 < y1) (h0 : 0 ≤ h)
    (hg : ∀ t ∈ (Face.top x0 y0 x1 y1 h).tris res, MissesEdges p ⟨d, 0, 0⟩ t)
    (hp : ∀ t ∈ (Face.top x0 y0 x1 y1 h).tris res, ¬ InTri t p) :
    (faceHits res p ⟨d, 0, 0⟩ (.top x0 y0 x1 y1 h) : ℝ) =
      ∑ x ∈ Finset.Ico x0 x1, ∑ y ∈ Finset.Ico y0 y1, -hitZ res d p x y h := by
  have hw : (0:ℝ) < res * (x1 - x0) := by
    have : (x0:ℝ) < x1 := by exact_mod_cast hx01
    exact mul_pos hr (by linarith)
  have hw' : (0:ℝ) < res * (y1 - y0) := by
    have : (y0:ℝ) < y1 := by exact_mod_cast hy01
    exact mul_pos hr (by linarith)
  set s := tz p h with hs
  have hZ := ((z_ge hz h s).2.2).2 hs
  set X := p.x + s * (d - p.x) with hX
  set Y := p.y + s * (0 - p.y) with hY
  set a := (X - res * x0) / (res * (x1 - x0)) with ha
  set b := (Y - res * y0) / (res * (y1 - y0)) with hb
  have eX : X = res * x0 + a * (res * (x1 - x0)) := by rw [ha, div_mul_cancel₀ _ hw.ne']; ring
  have eY : Y = res * y0 + b * (res * (y1 - y0)) := by rw [hb, div_mul_cancel₀ _ hw'.ne']; ring
  simp only [Face.tris, List.mem_cons, List.not_mem_nil, or_false, forall_eq_or_imp, forall_eq] at hg hp
  obtain ⟨key, hin⟩ := quad_crossing (p := p) (q := ⟨d, 0, 0⟩) (C := ⟨res * x0, res * y0, h⟩)
    (u := ⟨res * (x1 - x0), 0, 0⟩) (v := ⟨0, res * (y1 - y0), 0⟩) (s := s) (a := a) (b := b)
    (by
      simp only [lerp, para]
      rw [hZ]
      ext <;> simp only
      · rw [← hX, eX]; ring
      · rw [← hY, eY]; ring
      · ring)
    (by
      intro s' a' b' e
      simp only [lerp, para, Vec3.mk.injEq] at e
      obtain ⟨e1, e2, e3⟩ := e
      have es : s' = s := by
        have : (s' - s) * (0 - p.z) = 0 := by rw [sub_mul]; linarith
        rcases mul_eq_zero.1 this with k | k <;> linarith
      subst es
      refine ⟨rfl, ?_, ?_⟩
      · have : (a' - a) * (res * (x1 - x0)) = 0 := by
          rw [← hX, eX] at e1; linarith
        rcases mul_eq_zero.1 this with k | k <;> linarith
      · have : (b' - b) * (res * (y1 - y0)) = 0 := by
          rw [← hY, eY] at e2; linarith
        rcases mul_eq_zero.1 this with k | k <;> linarith)
    (t1 := (⟨res * x1, res * y0, h⟩, ⟨res * x0, res * y1, h⟩, ⟨res * x0, res * y0, h⟩))
    (t2 := (⟨res * x0, res * y1, h⟩, ⟨res * x1, res * y0, h⟩, ⟨res * x1, res * y1, h⟩))
    (by simp only [para, Prod.mk.injEq, Vec3.mk.injEq]; refine ⟨⟨?_, ?_, ?_⟩, ⟨?_, ?_, ?_⟩, trivial⟩ <;> ring)
    (by simp only [para, Prod.mk.injEq, Vec3.mk.injEq]; refine ⟨⟨?_, ?_, ?_⟩, ⟨?_, ?_, ?_⟩, ?_, ?_, ?_⟩ <;> ring)
    (misses_rot hg.1) (misses_rot (misses_rot hg.2)) (fun k => hp.1 (inTri_rot k)) (fun k => hp.2 (inTri_rot (inTri_rot k)))
  have eside : ¬ (side (⟨res * x1, res * y0, h⟩, ⟨res * x0, res * y1, h⟩, ⟨res * x0, res * y0, h⟩) p <
      side (⟨res * x1, res * y0, h⟩, ⟨res * x0, res * y1, h⟩, ⟨res * x0, res * y0, h⟩) ⟨d, 0, 0⟩) := by
    have e : side (⟨res * x1, res * y0, h⟩, ⟨res * x0, res * y1, h⟩, ⟨res * x0, res * y0, h⟩) ⟨d, 0, 0⟩ -
        side (⟨res * x1, res * y0, h⟩, ⟨res * x0, res * y1, h⟩, ⟨res * x0, res * y0, h⟩) p =
        -((res * (x1 - x0)) * (res * (y1 - y0)) * p.z) := by simp only [side]; ring
    have := mul_pos (mul_pos hw hw') hz
    linarith
  have e0 : (faceHits res p ⟨d, 0, 0⟩ (.top x0 y0 x1 y1 h) : ℝ) =
      ((crossing p ⟨d, 0, 0⟩ (⟨res * x1, res * y0, h⟩, ⟨res * x0, res * y1, h⟩, ⟨res * x0, res * y0, h⟩) +
        crossing p ⟨d, 0, 0⟩ (⟨res * x0, res * y1, h⟩, ⟨res * x1, res * y0, h⟩, ⟨res * x1, res * y1, h⟩) : ℤ) : ℝ) := by
    rw [← crossing_rot p ⟨d, 0, 0⟩ ⟨res * x0, res * y0, h⟩ ⟨res * x1, res * y0, h⟩ ⟨res * x0, res * y1, h⟩,
      crossing_rot p ⟨d, 0, 0⟩ ⟨res * x0, res * y1, h⟩ ⟨res * x1, res * y0, h⟩ ⟨res * x1, res * y1, h⟩]
    simp [faceHits, Face.tris]
  rw [e0, key, if_neg eside]
  have sum : ∑ x ∈ Finset.Ico x0 x1, ∑ y ∈ Finset.Ico y0 y1, -hitZ res d p x y h =
      -ind ((0 < s ∧ ty res p y1 ≤ s ∧ s < ty res p y0) ∧ tx res d p x0 ≤ s ∧ s < tx res d p x1) := by
    rw [← sum_up _ _ _ (tx_mono hr hd) hx01.le, ← Finset.sum_neg_distrib]
    refine Finset.sum_congr rfl fun x _ => ?_
    rw [ind_congr (Q := (0 < s ∧ tx res d p x ≤ s ∧ s < tx res d p (x + 1)) ∧ ty res p y1 ≤ s ∧ s < ty res p y0)
      ⟨fun k => ⟨⟨k.1.1, k.2⟩, k.1.2⟩, fun k => ⟨⟨k.1.1, k.2⟩, k.1.2⟩⟩, ← sum_down' _ _ _ (ty_anti hr hy) hy01.le,
      ← Finset.sum_neg_distrib]
    refine Finset.sum_congr rfl fun y _ => ?_
    congr 1
    refine ind_congr ?_
    rw [← hs]
    exact ⟨fun ⟨k1, k2, k3, k4⟩ => ⟨⟨k1, k2, k3⟩, k4⟩, fun ⟨⟨k1, k2, k3⟩, k4⟩ => ⟨k1, k2, k3, k4⟩⟩
  rw [sum, mul_neg_one]
  have hx0 := x_ge (res := res) hd x0 s
  have hx1 := x_ge (res := res) hd x1 s
  rw [← hX] at hx0 hx1
  have hy0 := y_ge (res := res) hy y0 s
  have hy1 := y_ge (res := res) hy y1 s
  rw [← hY] at hy0 hy1
  have hlt : tx res d p x0 < tx res d p x1 := tx_mono (res := res) hr hd hx01
  have hlt' : ty res p y1 < ty res p y0 := ty_anti (res := res) hr hy hy01
  have hA : 0 < a ∧ a < 1 → tx res d p x0 ≤ s ∧ s < tx res d p x1 := by
    rw [between (h := res * x0) (h2 := res * x1) (z := X) (by intro k; nlinarith) (by rw [eX]; ring)]
    rintro (k | k)
    · exact ⟨(hx0.2.1.1 k.1).le, hx1.2.2.1 k.2⟩
    · have k1 := hx1.2.1.1 k.1
      have k2 := hx0.2.2.1 k.2
      linarith
  have hA' : tx res d p x0 ≤ s ∧ s < tx res d p x1 → 0 ≤ a ∧ a ≤ 1 := fun k =>
    between_le (h := res * x0) (h2 := res * x1) (z := X) (by rw [eX]; ring) (by intro k; nlinarith)
      (.inl ⟨hx0.1.2 k.1, (hx1.2.2.2 k.2).le⟩)
  have hB : 0 < b ∧ b < 1 → ty res p y1 ≤ s ∧ s < ty res p y0 := by
    rw [between (h := res * y0) (h2 := res * y1) (z := Y) (by intro k; nlinarith) (by rw [eY]; ring)]
    rintro (k | k)
    · exact ⟨(hy1.2.2.1.1 k.2).le, hy0.2.1.1 k.1⟩
    · have k1 := hy1.2.1.1 k.1
      have k2 := hy0.2.2.1.1 k.2
      linarith
  have hB' : ty res p y1 ≤ s ∧ s < ty res p y0 → 0 ≤ b ∧ b ≤ 1 := fun k =>
    between_le (h := res * y0) (h2 := res * y1) (z := Y) (by rw [eY]; ring) (by intro k; nlinarith)
      (.inl ⟨(hy0.2.1.2 k.2).le, y_of_ge hy k.1⟩)
  have hs1 : s ≤ 1 := by
    rw [hs]; unfold tz
    have := div_nonneg h0 hz.le
    linarith
  congr 1
  exact ind_congr ⟨fun ⟨k1, _, k3, k4, k5, k6⟩ => ⟨⟨k1, hB ⟨k5, k6⟩⟩, hA ⟨k3, k4⟩⟩,
    fun ⟨⟨k1, k2⟩, k3⟩ => ⟨k1, hs1, hin k1.le hs1 (hA' k3).1 (hA' k3).2 (hB' k2).1 (hB' k2).2⟩⟩

/-- The faces of a column: exits minus entries tell whether the probe starts in it. -/
theorem column_hits {res d : ℝ} {p : Vec3} (hr : 0 < res) (hd : p.x < d) (hy : 0 < p.y) (hz : 0 < p.z) (i j : ℕ) (h : ℝ) :
    hitX res d p (i + 1) j h - hitX res d p i j h + (hitY res d p i j h - hitY res d p i (j + 1) h) - hitZ res d p i j h =
      ind ((res * i ≤ p.x ∧ p.x < res * (i + 1 : ℕ)) ∧ (res * j < p.y ∧ p.y ≤ res * (j + 1 : ℕ)) ∧ p.z ≤ h) := by
  have key := box_times (α := ℝ ×ₗ ℕ) (o := toLex (0, 3)) (a1 := toLex (tx res d p i, 0)) (d1 := toLex (tx res d p (i + 1), 0))
    (a2 := toLex (ty res p (j + 1), 1)) (d2 := toLex (ty res p j, 1)) (a3 := toLex (tz p h, 2))
    (by rw [Prod.Lex.toLex_lt_toLex]; exact .inl (tx_mono hr hd (Nat.lt_succ_self i)))
    (by rw [Prod.Lex.toLex_lt_toLex]; exact .inl (ty_anti hr hy (Nat.lt_succ_self j)))
    (by simp) (by simp) (by simp) (by simp) (by simp) (by simp) (by simp) (by simp) (by simp) (by simp) (by simp)
  simp only [Prod.Lex.toLex_lt_toLex] at key
  norm_num [← le_iff_lt_or_eq] at key
  have x0 := x_ge (res := res) hd i 0
  have x1 := x_ge (res := res) hd (i + 1) 0
  have y0 := y_ge (res := res) hy j 0
  have y1 := y_ge (res := res) hy (j + 1) 0
  have z0 := z_ge hz h 0
  simp only [zero_mul, add_zero] at x0 x1 y0 y1 z0
  rw [x0.1, x1.2.2, y0.2.1, ← not_lt (b := p.y), y1.2.1, ← not_lt (b := p.z), z0.1]
  rw [ind_congr (Q := tx res d p i ≤ 0 ∧ 0 < tx res d p (i + 1) ∧ ty res p (j + 1) ≤ 0 ∧ 0 < ty res p j ∧ tz p h ≤ 0)
    ⟨fun ⟨⟨k1, k2⟩, ⟨k3, k4⟩, k5⟩ => ⟨k1, k2, not_lt.1 k4, k3, not_lt.1 k5⟩,
      fun ⟨k1, k2, k4, k3, k5⟩ => ⟨⟨k1, k2⟩, ⟨k3, not_lt.2 k4⟩, not_lt.2 k5⟩⟩, ← key]
  unfold hitX hitY hitZ
  ring

end Geo.HeightMap
