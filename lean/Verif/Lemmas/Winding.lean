import Verif.Lemmas.Contact
import Mathlib.Algebra.Polynomial.Roots
import Mathlib.Topology.LocallyConstant.Basic
import Mathlib.Topology.MetricSpace.Pseudo.Constructions
import Mathlib.Analysis.Convex.StdSimplex

/-!
# The crossing number of a closed mesh along a moving probe
-/

namespace Geo

open Spec

/-- The sign of a number. (Device of the proofs.) -/
noncomputable def sg (x : ℝ) : ℤ := open Classical in if 0 < x then 1 else if x < 0 then -1 else 0

/-- 1 on the closed upper side of a plane, 0 below it. (Device of the proofs.) -/
noncomputable def up (x : ℝ) : ℤ := open Classical in if 0 ≤ x then 1 else 0

/-- 1 if two points are on different sides of a plane. (Device of the proofs.) -/
noncomputable def sep (x y : ℝ) : ℤ := open Classical in if (0 ≤ x ↔ 0 ≤ y) then 0 else 1

/-- 2 if a line with these side products meets the interior of a triangle, 1 if the interior of an edge.
(Device of the proofs.) -/
noncomputable def touch (a b c : ℝ) : ℤ :=
  open Classical in
  if 0 ≤ a ∧ 0 ≤ b ∧ 0 ≤ c ∨ a ≤ 0 ∧ b ≤ 0 ∧ c ≤ 0 then
    |sg a + sg b + sg c| - |sg (a + b + c)| else 0

/-- At most one of the numbers is zero. (Device of the proofs.) -/
def TwoNZ (a b c : ℝ) : Prop := (a ≠ 0 ∧ b ≠ 0) ∨ (b ≠ 0 ∧ c ≠ 0) ∨ (c ≠ 0 ∧ a ≠ 0)

theorem sg_pos {x : ℝ} (h : 0 < x) : sg x = 1 := by simp [sg, h]
theorem sg_neg {x : ℝ} (h : x < 0) : sg x = -1 := by simp [sg, h, h.le]
theorem sg_zero : sg 0 = 0 := by simp [sg]
theorem up_pos {x : ℝ} (h : 0 ≤ x) : up x = 1 := by simp [up, h]
theorem up_neg {x : ℝ} (h : x < 0) : up x = 0 := by simp [up, h]

theorem sep_comm (x y : ℝ) : sep x y = sep y x := by
  unfold sep; simp only [Iff.comm]

theorem touch_cases {a b c : ℝ} (h : TwoNZ a b c) :
    (0 ≤ a ∧ 0 ≤ b ∧ 0 ≤ c ∧ 0 < a + b + c ∧ touch a b c = sg a + sg b + sg c - 1) ∨
    (a ≤ 0 ∧ b ≤ 0 ∧ c ≤ 0 ∧ a + b + c < 0 ∧ touch a b c = - (sg a + sg b + sg c) - 1) ∨
    (touch a b c = 0 ∧ ¬ (0 ≤ a ∧ 0 ≤ b ∧ 0 ≤ c) ∧ ¬ (a ≤ 0 ∧ b ≤ 0 ∧ c ≤ 0)) := by
  by_cases h1 : 0 ≤ a ∧ 0 ≤ b ∧ 0 ≤ c
  · left
    obtain ⟨ha, hb, hc⟩ := h1
    have hs : 0 < a + b + c := by
      rcases h with ⟨h, h'⟩ | ⟨h, h'⟩ | ⟨h, h'⟩
      · have := lt_of_le_of_ne ha (Ne.symm h); linarith
      · have := lt_of_le_of_ne hb (Ne.symm h); linarith
      · have := lt_of_le_of_ne hc (Ne.symm h); linarith
    refine ⟨ha, hb, hc, hs, ?_⟩
    unfold touch
    rw [if_pos (Or.inl ⟨ha, hb, hc⟩), sg_pos hs]
    have : ∀ x : ℝ, 0 ≤ x → 0 ≤ sg x := by
      intro x hx
      rcases hx.lt_or_eq with h | h
      · rw [sg_pos h]; norm_num
      · rw [← h, sg_zero]
    rw [abs_of_nonneg (by have h1 := this a ha; have h2 := this b hb; have h3 := this c hc; omega)]
    simp
  · by_cases h2 : a ≤ 0 ∧ b ≤ 0 ∧ c ≤ 0
    · right; left
      obtain ⟨ha, hb, hc⟩ := h2
      have hs : a + b + c < 0 := by
        rcases h with ⟨h, h'⟩ | ⟨h, h'⟩ | ⟨h, h'⟩
        · have := lt_of_le_of_ne ha h; linarith
        · have := lt_of_le_of_ne hb h; linarith
        · have := lt_of_le_of_ne hc h; linarith
      refine ⟨ha, hb, hc, hs, ?_⟩
      unfold touch
      rw [if_pos (Or.inr ⟨ha, hb, hc⟩), sg_neg hs]
      have : ∀ x : ℝ, x ≤ 0 → sg x ≤ 0 := by
        intro x hx
        rcases hx.lt_or_eq with h | h
        · rw [sg_neg h]; norm_num
        · rw [h, sg_zero]
      rw [abs_of_nonpos (by have h1 := this a ha; have h2 := this b hb; have h3 := this c hc; omega)]
      simp
    · right; right
      refine ⟨?_, h1, h2⟩
      unfold touch
      rw [if_neg (by tauto)]

theorem sg_opp (x : ℝ) : sg (-x) = -sg x := by
  rcases lt_trichotomy x 0 with h | h | h
  · rw [sg_neg h, sg_pos (by linarith)]; rfl
  · rw [h, neg_zero, sg_zero]; rfl
  · rw [sg_pos h, sg_neg (by linarith)]

theorem touch_opp (a b c : ℝ) : touch (-a) (-b) (-c) = touch a b c := by
  unfold touch
  have e : -a + -b + -c = -(a + b + c) := by ring
  simp only [sg_opp, e, abs_neg, Left.nonneg_neg_iff, Left.neg_nonpos_iff]
  have e' : |-sg a + -sg b + -sg c| = |sg a + sg b + sg c| := by
    rw [← abs_neg]; congr 1; ring
  rw [e']
  congr 1
  simp only [or_comm]

theorem touch_rot (a b c : ℝ) : touch b c a = touch a b c := by
  unfold touch
  have e : b + c + a = a + b + c := by ring
  have e' : sg b + sg c + sg a = sg a + sg b + sg c := by ring
  rw [e, e']
  congr 1
  rw [eq_iff_iff]
  tauto

theorem TwoNZ.rot {a b c : ℝ} (h : TwoNZ a b c) : TwoNZ b c a := by
  unfold TwoNZ at *; tauto

theorem TwoNZ.opp {a b c : ℝ} (h : TwoNZ a b c) : TwoNZ (-a) (-b) (-c) := by
  unfold TwoNZ at *; simpa using h

theorem TwoNZ.not12 {a b c : ℝ} (h : TwoNZ a b c) : ¬ (a = 0 ∧ b = 0) := by
  unfold TwoNZ at h; tauto

theorem TwoNZ.not31 {a b c : ℝ} (h : TwoNZ a b c) : ¬ (c = 0 ∧ a = 0) := by
  unfold TwoNZ at h; tauto

/-- One corner of the triangle is alone on its side of the plane and the line passes it on the positive
side. -/
theorem touch_alone_pos {v1 v2 v3 b1 b2 b3 : ℝ} (h : TwoNZ v1 v2 v3)
    (hb : TwoNZ b1 b2 b3) (hr : b1 * v2 + b2 * v3 + b3 * v1 = 0)
    (hs : (0 ≤ b1 ∧ b2 < 0 ∧ b3 < 0) ∨ (b1 < 0 ∧ 0 ≤ b2 ∧ 0 ≤ b3))
    (h1 : 0 ≤ v1) (h3 : 0 ≤ v3) :
    sg (v1 + v2 + v3) * touch v1 v2 v3 = sg v1 + sg v3 := by
  have h13 : 0 < v1 ∨ 0 < v3 := by
    rcases h1.lt_or_eq with e | e
    · exact .inl e
    · rcases h3.lt_or_eq with e' | e'
      · exact .inr e'
      · exfalso; rcases h with h | h | h <;> simp_all
  have hv2 : 0 < v2 := by
    rcases hs with ⟨g1, g2, g3⟩ | ⟨g1, g2, g3⟩
    · have : 0 < b1 * v2 := by
        rcases h13 with e | e
        · have := mul_neg_of_neg_of_pos g3 e
          have := mul_nonpos_of_nonpos_of_nonneg g2.le h3
          linarith
        · have := mul_neg_of_neg_of_pos g2 e
          have := mul_nonpos_of_nonpos_of_nonneg g3.le h1
          linarith
      by_contra hn
      push Not at hn
      have := mul_nonpos_of_nonneg_of_nonpos g1 hn
      linarith
    · have e1 := mul_nonneg g2 h3
      have e2 := mul_nonneg g3 h1
      have h2 : 0 ≤ v2 := by
        by_contra hn
        push Not at hn
        have := mul_pos_of_neg_of_neg g1 hn
        linarith
      rcases h2.lt_or_eq with e | e
      · exact e
      · exfalso
        rw [← e] at hr h
        have z1 : b2 * v3 = 0 := by linarith
        have z2 : b3 * v1 = 0 := by linarith
        have n1 : v1 ≠ 0 := by rcases h with h | h | h <;> simp_all
        have n3 : v3 ≠ 0 := by rcases h with h | h | h <;> simp_all
        have y1 : b2 = 0 := (mul_eq_zero.1 z1).resolve_right n3
        have y2 : b3 = 0 := (mul_eq_zero.1 z2).resolve_right n1
        rcases hb with h | h | h <;> simp_all
  rcases touch_cases h with ⟨-, -, -, hp, ht⟩ | ⟨-, hn, -⟩ | ⟨-, hn, -⟩
  · rw [sg_pos hp, ht, sg_pos hv2]; ring
  · linarith
  · exact absurd ⟨h1, hv2.le, h3⟩ hn

/-- One corner of the triangle is alone on its side of the plane. -/
theorem touch_alone {v1 v2 v3 b1 b2 b3 : ℝ} (h : TwoNZ v1 v2 v3)
    (hb : TwoNZ b1 b2 b3) (hr : b1 * v2 + b2 * v3 + b3 * v1 = 0)
    (hs : (0 ≤ b1 ∧ b2 < 0 ∧ b3 < 0) ∨ (b1 < 0 ∧ 0 ≤ b2 ∧ 0 ≤ b3)) :
    sg (v1 + v2 + v3) * touch v1 v2 v3 = sg v1 + sg v3 := by
  have neg : v1 ≤ 0 → v3 ≤ 0 → sg (v1 + v2 + v3) * touch v1 v2 v3 = sg v1 + sg v3 := by
    intro h1 h3
    have := touch_alone_pos h.opp hb (by linarith) hs (by linarith) (by linarith)
    rw [touch_opp, show -v1 + -v2 + -v3 = -(v1 + v2 + v3) by ring, sg_opp, sg_opp, sg_opp] at this
    linarith
  rcases le_total 0 v1 with h1 | h1 <;> rcases le_total 0 v3 with h3 | h3
  · exact touch_alone_pos h hb hr hs h1 h3
  · rcases h1.eq_or_lt with e | e
    · exact neg e.ge h3
    · rcases h3.eq_or_lt with e' | e'
      · exact touch_alone_pos h hb hr hs h1 e'.ge
      · rcases touch_cases h with ⟨-, -, hn, -⟩ | ⟨hn, -⟩ | ⟨ht, -⟩
        · linarith
        · linarith
        · rw [ht, sg_pos e, sg_neg e']; ring
  · rcases h1.eq_or_lt with e | e
    · exact touch_alone_pos h hb hr hs e.ge h3
    · rcases h3.eq_or_lt with e' | e'
      · exact neg h1 e'.ge
      · rcases touch_cases h with ⟨hn, -⟩ | ⟨-, -, hn, -⟩ | ⟨ht, -⟩
        · linarith
        · linarith
        · rw [ht, sg_pos e', sg_neg e]; ring
  · exact neg h1 h3

/-- No corner is separated: the line misses the triangle. -/
theorem touch_same {v1 v2 v3 b1 b2 b3 : ℝ} (h : TwoNZ v1 v2 v3)
    (hb : TwoNZ b1 b2 b3) (hr : b1 * v2 + b2 * v3 + b3 * v1 = 0)
    (hs : (0 ≤ b1 ∧ 0 ≤ b2 ∧ 0 ≤ b3) ∨ (b1 < 0 ∧ b2 < 0 ∧ b3 < 0)) : touch v1 v2 v3 = 0 := by
  have key : ∀ v1 v2 v3 b1 b2 b3 : ℝ, TwoNZ v1 v2 v3 → TwoNZ b1 b2 b3 →
      b1 * v2 + b2 * v3 + b3 * v1 = 0 → 0 ≤ v1 → 0 ≤ v2 → 0 ≤ v3 → 0 ≤ b1 → 0 ≤ b2 → 0 ≤ b3 → False := by
    intro v1 v2 v3 b1 b2 b3 h hb hr h1 h2 h3 g1 g2 g3
    have e1 := mul_nonneg g1 h2
    have e2 := mul_nonneg g2 h3
    have e3 := mul_nonneg g3 h1
    have z1 : b1 * v2 = 0 := by linarith
    have z2 : b2 * v3 = 0 := by linarith
    have z3 : b3 * v1 = 0 := by linarith
    rcases h with ⟨n1, n2⟩ | ⟨n2, n3⟩ | ⟨n3, n1⟩
    · have y1 := (mul_eq_zero.1 z1).resolve_right n2
      have y3 := (mul_eq_zero.1 z3).resolve_right n1
      rcases hb with h | h | h <;> simp_all
    · have y1 := (mul_eq_zero.1 z1).resolve_right n2
      have y2 := (mul_eq_zero.1 z2).resolve_right n3
      rcases hb with h | h | h <;> simp_all
    · have y2 := (mul_eq_zero.1 z2).resolve_right n3
      have y3 := (mul_eq_zero.1 z3).resolve_right n1
      rcases hb with h | h | h <;> simp_all
  rcases touch_cases h with ⟨h1, h2, h3, -⟩ | ⟨h1, h2, h3, -⟩ | ⟨ht, -⟩
  · exfalso
    rcases hs with ⟨g1, g2, g3⟩ | ⟨g1, g2, g3⟩
    · exact key _ _ _ _ _ _ h hb hr h1 h2 h3 g1 g2 g3
    · exact key _ _ _ (-b1) (-b2) (-b3) h hb.opp (by linarith) h1 h2 h3 (by linarith) (by linarith)
        (by linarith)
  · exfalso
    rcases hs with ⟨g1, g2, g3⟩ | ⟨g1, g2, g3⟩
    · exact key (-v1) (-v2) (-v3) _ _ _ h.opp hb (by linarith) (by linarith) (by linarith) (by linarith)
        g1 g2 g3
    · exact key (-v1) (-v2) (-v3) (-b1) (-b2) (-b3) h.opp hb.opp (by linarith) (by linarith) (by linarith)
        (by linarith) (by linarith) (by linarith) (by linarith)
  · exact ht

/-- A plane through the line sees the crossing by the edges of the triangle which it separates. -/
theorem touch_sep {v1 v2 v3 b1 b2 b3 : ℝ} (h : TwoNZ v1 v2 v3)
    (hb : TwoNZ b1 b2 b3) (hr : b1 * v2 + b2 * v3 + b3 * v1 = 0) :
    sg (v1 + v2 + v3) * touch v1 v2 v3 =
      sep b1 b2 * sg v1 + sep b2 b3 * sg v2 + sep b3 b1 * sg v3 := by
  have alone2 : (0 ≤ b2 ∧ b3 < 0 ∧ b1 < 0) ∨ (b2 < 0 ∧ 0 ≤ b3 ∧ 0 ≤ b1) →
      sg (v1 + v2 + v3) * touch v1 v2 v3 = sg v2 + sg v1 := by
    intro hs
    have := touch_alone h.rot hb.rot (by linarith) hs
    rwa [touch_rot, show v2 + v3 + v1 = v1 + v2 + v3 by ring] at this
  have alone3 : (0 ≤ b3 ∧ b1 < 0 ∧ b2 < 0) ∨ (b3 < 0 ∧ 0 ≤ b1 ∧ 0 ≤ b2) →
      sg (v1 + v2 + v3) * touch v1 v2 v3 = sg v3 + sg v2 := by
    intro hs
    have := touch_alone h.rot.rot hb.rot.rot (by linarith) hs
    rwa [touch_rot, touch_rot, show v3 + v1 + v2 = v1 + v2 + v3 by ring] at this
  unfold sep
  rcases lt_or_ge b1 0 with g1 | g1 <;> rcases lt_or_ge b2 0 with g2 | g2 <;>
    rcases lt_or_ge b3 0 with g3 | g3
  · rw [touch_same h hb hr (.inr ⟨g1, g2, g3⟩)]; simp [g1.not_ge, g2.not_ge, g3.not_ge]
  · rw [alone3 (.inl ⟨g3, g1, g2⟩)]; simp [g1.not_ge, g2.not_ge, g3]; ring
  · rw [alone2 (.inl ⟨g2, g3, g1⟩)]; simp [g1.not_ge, g2, g3.not_ge]; ring
  · rw [touch_alone h hb hr (.inr ⟨g1, g2, g3⟩)]; simp [g1.not_ge, g2, g3]
  · rw [touch_alone h hb hr (.inl ⟨g1, g2, g3⟩)]; simp [g1, g2.not_ge, g3.not_ge]
  · rw [alone2 (.inr ⟨g2, g3, g1⟩)]; simp [g1, g2.not_ge, g3]; ring
  · rw [alone3 (.inr ⟨g3, g1, g2⟩)]; simp [g1, g2, g3.not_ge]; ring
  · rw [touch_same h hb hr (.inl ⟨g1, g2, g3⟩)]; simp [g1, g2, g3]

theorem up_sep (a b : ℝ) : up b - up a = sep a b * sg (b - a) := by
  unfold sep
  rcases lt_or_ge a 0 with h | h <;> rcases lt_or_ge b 0 with h' | h'
  · simp [up_neg h, up_neg h', h.not_ge, h'.not_ge]
  · rw [up_neg h, up_pos h', sg_pos (by linarith)]; simp [h.not_ge, h']
  · rw [up_pos h, up_neg h', sg_neg (by linarith)]; simp [h, h'.not_ge]
  · simp [up_pos h, up_pos h', h, h']

/-! ## Two triangles -/

/-- Twice the signed crossing of a segment with a triangle, a point on an edge counting one half and the
plane of the triangle belonging to its upper side. (Device of the proofs.) -/
noncomputable def pass (p q : Vec3) (t : Vec3 × Vec3 × Vec3) : ℤ :=
  (up (side t q) - up (side t p)) *
    touch (vol4 p q t.1 t.2.1) (vol4 p q t.2.1 t.2.2) (vol4 p q t.2.2 t.1)

theorem vol4_swap (p q a b : Vec3) : vol4 q p a b = -vol4 p q a b := by
  simp only [vol4_eq]; ring

theorem vol4_comm (p q a b : Vec3) : vol4 a b p q = vol4 p q a b := by
  simp only [vol4_eq]; ring

theorem side_rot (a b c x : Vec3) : side (b, c, a) x = side (a, b, c) x := by
  simp only [side]; ring

theorem pass_swap (p q : Vec3) (t : Vec3 × Vec3 × Vec3) : pass q p t = -pass p q t := by
  unfold pass
  simp only [vol4_swap p q, touch_opp]
  ring

theorem plane_relation (p q r b1 b2 b3 : Vec3) :
    side (p, q, r) b1 * vol4 p q b2 b3 + side (p, q, r) b2 * vol4 p q b3 b1
      + side (p, q, r) b3 * vol4 p q b1 b2 = 0 := by
  simp only [vol4_eq, side]; ring

theorem pass_sep {p q r b1 b2 b3 : Vec3}
    (h : TwoNZ (vol4 p q b1 b2) (vol4 p q b2 b3) (vol4 p q b3 b1) ∨
      sep (side (b1, b2, b3) p) (side (b1, b2, b3) q) = 0)
    (hb : TwoNZ (side (p, q, r) b1) (side (p, q, r) b2) (side (p, q, r) b3)) :
    pass p q (b1, b2, b3) = sep (side (b1, b2, b3) p) (side (b1, b2, b3) q) *
      (sep (side (p, q, r) b1) (side (p, q, r) b2) * sg (vol4 p q b1 b2) +
       sep (side (p, q, r) b2) (side (p, q, r) b3) * sg (vol4 p q b2 b3) +
       sep (side (p, q, r) b3) (side (p, q, r) b1) * sg (vol4 p q b3 b1)) := by
  unfold pass
  rw [up_sep]
  rcases h with h | h
  · rw [← side_sum, ← touch_sep h hb (plane_relation p q r b1 b2 b3)]
    ring
  · rw [h]; ring

/-- The boundary of one triangle crosses the other as often as the other way round. -/
theorem pass_two {a1 a2 a3 b1 b2 b3 : Vec3}
    (r1 : TwoNZ (vol4 a1 a2 b1 b2) (vol4 a1 a2 b2 b3) (vol4 a1 a2 b3 b1) ∨
      sep (side (b1, b2, b3) a1) (side (b1, b2, b3) a2) = 0)
    (r2 : TwoNZ (vol4 a2 a3 b1 b2) (vol4 a2 a3 b2 b3) (vol4 a2 a3 b3 b1) ∨
      sep (side (b1, b2, b3) a2) (side (b1, b2, b3) a3) = 0)
    (r3 : TwoNZ (vol4 a3 a1 b1 b2) (vol4 a3 a1 b2 b3) (vol4 a3 a1 b3 b1) ∨
      sep (side (b1, b2, b3) a3) (side (b1, b2, b3) a1) = 0)
    (c1 : TwoNZ (vol4 b1 b2 a1 a2) (vol4 b1 b2 a2 a3) (vol4 b1 b2 a3 a1) ∨
      sep (side (a1, a2, a3) b1) (side (a1, a2, a3) b2) = 0)
    (c2 : TwoNZ (vol4 b2 b3 a1 a2) (vol4 b2 b3 a2 a3) (vol4 b2 b3 a3 a1) ∨
      sep (side (a1, a2, a3) b2) (side (a1, a2, a3) b3) = 0)
    (c3 : TwoNZ (vol4 b3 b1 a1 a2) (vol4 b3 b1 a2 a3) (vol4 b3 b1 a3 a1) ∨
      sep (side (a1, a2, a3) b3) (side (a1, a2, a3) b1) = 0)
    (hA : TwoNZ (side (a1, a2, a3) b1) (side (a1, a2, a3) b2) (side (a1, a2, a3) b3))
    (hB : TwoNZ (side (b1, b2, b3) a1) (side (b1, b2, b3) a2) (side (b1, b2, b3) a3)) :
    pass a1 a2 (b1, b2, b3) + pass a2 a3 (b1, b2, b3) + pass a3 a1 (b1, b2, b3) =
      pass b1 b2 (a1, a2, a3) + pass b2 b3 (a1, a2, a3) + pass b3 b1 (a1, a2, a3) := by
  rw [pass_sep (r := a3) r1 hA, pass_sep (r := a1) r2 (by simpa only [side_rot a1 a2 a3] using hA),
    pass_sep (r := a2) r3 (by simpa only [side_rot a2 a3 a1, side_rot a1 a2 a3] using hA),
    pass_sep (r := b3) c1 hB, pass_sep (r := b1) c2 (by simpa only [side_rot b1 b2 b3] using hB),
    pass_sep (r := b2) c3 (by simpa only [side_rot b2 b3 b1, side_rot b1 b2 b3] using hB)]
  simp only [side_rot a2 a3 a1, side_rot a1 a2 a3, side_rot b2 b3 b1, side_rot b1 b2 b3,
    vol4_comm a1 a2, vol4_comm a2 a3, vol4_comm a3 a1]
  ring

theorem touch_scale {d : ℝ} (hd : d ≠ 0) (a b c : ℝ) : touch (d * a) (d * b) (d * c) = touch a b c := by
  have pos : ∀ d : ℝ, 0 < d → touch (d * a) (d * b) (d * c) = touch a b c := by
    intro d hd
    have hs : ∀ x, sg (d * x) = sg x := by
      intro x
      unfold sg
      simp only [mul_pos_iff_of_pos_left hd, mul_neg_iff, hd, hd.not_gt, true_and, false_and, or_false]
    have e : d * a + d * b + d * c = d * (a + b + c) := by ring
    have hn : ∀ x, d * x ≤ 0 ↔ x ≤ 0 := fun x => by
      constructor
      · intro h; by_contra hx; push Not at hx; have := mul_pos hd hx; linarith
      · intro h; exact mul_nonpos_of_nonneg_of_nonpos hd.le h
    unfold touch
    simp only [e, hs, mul_nonneg_iff_of_pos_left hd, hn]
  rcases lt_or_gt_of_ne hd with h | h
  · rw [← touch_opp]
    have := pos (-d) (by linarith)
    rw [← this]
    congr 1 <;> ring
  · exact pos d h

/-- Vectors with vanishing cross product are multiples. -/
theorem parallel_of_cross {a b : Vec3} (h1 : a.y * b.z - a.z * b.y = 0) (h2 : a.z * b.x - a.x * b.z = 0)
    (h3 : a.x * b.y - a.y * b.x = 0) (hne : ¬ (a.x = 0 ∧ a.y = 0 ∧ a.z = 0)) :
    ∃ k : ℝ, b.x = k * a.x ∧ b.y = k * a.y ∧ b.z = k * a.z := by
  by_cases hx : a.x = 0
  · by_cases hy : a.y = 0
    · have hz : a.z ≠ 0 := fun h => hne ⟨hx, hy, h⟩
      refine ⟨b.z / a.z, ?_, ?_, ?_⟩
      · field_simp; linarith
      · field_simp; linarith
      · field_simp
    · refine ⟨b.y / a.y, ?_, ?_, ?_⟩
      · field_simp; linarith
      · field_simp
      · field_simp; linarith
  · refine ⟨b.x / a.x, ?_, ?_, ?_⟩
    · field_simp
    · field_simp; linarith
    · field_simp; linarith

theorem flat_cross {a1 a2 a3 : Vec3} (h : ∀ x, side (a1, a2, a3) x = 0) :
    (a2.y - a1.y) * (a3.z - a1.z) - (a2.z - a1.z) * (a3.y - a1.y) = 0 ∧
    (a2.z - a1.z) * (a3.x - a1.x) - (a2.x - a1.x) * (a3.z - a1.z) = 0 ∧
    (a2.x - a1.x) * (a3.y - a1.y) - (a2.y - a1.y) * (a3.x - a1.x) = 0 := by
  have e1 := h ⟨a1.x + 1, a1.y, a1.z⟩
  have e2 := h ⟨a1.x, a1.y + 1, a1.z⟩
  have e3 := h ⟨a1.x, a1.y, a1.z + 1⟩
  simp only [side] at e1 e2 e3
  refine ⟨?_, ?_, ?_⟩ <;> linarith

theorem flat_line {a1 a2 a3 : Vec3} (h : ∀ x, side (a1, a2, a3) x = 0) :
    ∃ (u : Vec3) (d1 d2 : ℝ),
      a2 = ⟨a1.x + d1 * u.x, a1.y + d1 * u.y, a1.z + d1 * u.z⟩ ∧
      a3 = ⟨a1.x + (d1 + d2) * u.x, a1.y + (d1 + d2) * u.y, a1.z + (d1 + d2) * u.z⟩ := by
  obtain ⟨h1, h2, h3⟩ := flat_cross h
  by_cases hne : a2.x - a1.x = 0 ∧ a2.y - a1.y = 0 ∧ a2.z - a1.z = 0
  · refine ⟨⟨a3.x - a1.x, a3.y - a1.y, a3.z - a1.z⟩, 0, 1, ?_, ?_⟩
    · obtain ⟨g1, g2, g3⟩ := hne
      ext <;> simp only <;> linarith
    · ext <;> simp only <;> ring
  · obtain ⟨k, k1, k2, k3⟩ := parallel_of_cross (a := ⟨a2.x - a1.x, a2.y - a1.y, a2.z - a1.z⟩)
      (b := ⟨a3.x - a1.x, a3.y - a1.y, a3.z - a1.z⟩) h1 h2 h3 hne
    simp only at k1 k2 k3
    refine ⟨⟨a2.x - a1.x, a2.y - a1.y, a2.z - a1.z⟩, 1, k - 1, ?_, ?_⟩
    · ext <;> simp only <;> ring
    · ext <;> simp only <;> linarith

/-- The boundary of a degenerate triangle crosses any triangle as often upwards as downwards. -/
theorem pass_flat {a1 a2 a3 : Vec3} (h : ∀ x, side (a1, a2, a3) x = 0) (t : Vec3 × Vec3 × Vec3) :
    pass a1 a2 t + pass a2 a3 t + pass a3 a1 t = 0 := by
  obtain ⟨u, d1, d2, e2, e3⟩ := flat_line h
  obtain ⟨b1, b2, b3⟩ := t
  obtain ⟨o, ho⟩ : ∃ o : Vec3, o = ⟨a1.x + u.x, a1.y + u.y, a1.z + u.z⟩ := ⟨_, rfl⟩
  have v1 : ∀ b c, vol4 a1 a2 b c = d1 * vol4 a1 o b c := by
    intro b c; rw [e2, ho]; simp only [vol4_eq]; ring
  have v2 : ∀ b c, vol4 a2 a3 b c = d2 * vol4 a1 o b c := by
    intro b c; rw [e2, e3, ho]; simp only [vol4_eq]; ring
  have v3 : ∀ b c, vol4 a3 a1 b c = -(d1 + d2) * vol4 a1 o b c := by
    intro b c; rw [e3, ho]; simp only [vol4_eq]; ring
  have key : ∀ (p q : Vec3) (d : ℝ), (∀ b c, vol4 p q b c = d * vol4 a1 o b c) → (d = 0 → p = q) →
      pass p q (b1, b2, b3) = (up (side (b1, b2, b3) q) - up (side (b1, b2, b3) p)) *
        touch (vol4 a1 o b1 b2) (vol4 a1 o b2 b3) (vol4 a1 o b3 b1) := by
    intro p q d hv hpq
    unfold pass
    by_cases hd : d = 0
    · rw [hpq hd]; ring
    · simp only [hv, touch_scale hd]
  rw [key a1 a2 d1 v1, key a2 a3 d2 v2, key a3 a1 _ v3]
  · ring
  · intro hd
    have : d1 + d2 = 0 := by linarith
    rw [e3, this]; ext <;> simp
  · intro hd
    rw [e2, e3, hd]; simp
  · intro hd
    rw [e2, hd]; ext <;> simp

/-! ## Points in general position -/

/-- All coordinates differ by less than `ε`. (Device of the proofs.) -/
def Near (ε : ℝ) (y z : Vec3) : Prop := |z.x - y.x| < ε ∧ |z.y - y.y| < ε ∧ |z.z - y.z| < ε

/-- The three points are in a line, seen from everywhere. (Device of the proofs.) -/
def Aligned (u v w : Vec3) : Prop := ∀ z, vol4 z u v w = 0

theorem near_self {ε : ℝ} (h : 0 < ε) (y : Vec3) : Near ε y y := by simp [Near, h]

/-- Near every point there is one in general position. -/
theorem exists_generic (L : List (Vec3 × Vec3 × Vec3)) (y : Vec3) {ε : ℝ} (hε : 0 < ε) :
    ∃ z, Near ε y z ∧ ∀ t ∈ L, vol4 z t.1 t.2.1 t.2.2 ≠ 0 ∨ Aligned t.1 t.2.1 t.2.2 := by
  classical
  have hfin : ∀ t : Vec3 × Vec3 × Vec3,
      {s : ℝ | vol4 ⟨y.x + s, y.y + s ^ 2, y.z + s ^ 3⟩ t.1 t.2.1 t.2.2 = 0 ∧
        ¬ Aligned t.1 t.2.1 t.2.2}.Finite := by
    rintro ⟨u, v, w⟩
    by_cases hA : Aligned u v w
    · simp [hA]
    · obtain ⟨n1, h1⟩ : ∃ n, n = -((v.y - u.y) * (w.z - u.z) - (v.z - u.z) * (w.y - u.y)) := ⟨_, rfl⟩
      obtain ⟨n2, h2⟩ : ∃ n, n = -((v.z - u.z) * (w.x - u.x) - (v.x - u.x) * (w.z - u.z)) := ⟨_, rfl⟩
      obtain ⟨n3, h3⟩ : ∃ n, n = -((v.x - u.x) * (w.y - u.y) - (v.y - u.y) * (w.x - u.x)) := ⟨_, rfl⟩
      have hv : ∀ z : Vec3, vol4 z u v w = vol4 y u v w + n1 * (z.x - y.x) + n2 * (z.y - y.y)
          + n3 * (z.z - y.z) := by
        intro z; rw [h1, h2, h3]; simp only [vol4_eq]; ring
      let P : Polynomial ℝ := Polynomial.C (vol4 y u v w) + Polynomial.C n1 * Polynomial.X
        + Polynomial.C n2 * Polynomial.X ^ 2 + Polynomial.C n3 * Polynomial.X ^ 3
      have hP : P ≠ 0 := by
        intro h0
        apply hA
        have c0 : P.coeff 0 = 0 := by rw [h0]; simp
        have c1 : P.coeff 1 = 0 := by rw [h0]; simp
        have c2 : P.coeff 2 = 0 := by rw [h0]; simp
        have c3 : P.coeff 3 = 0 := by rw [h0]; simp
        simp [P, Polynomial.coeff_X, Polynomial.coeff_C, Polynomial.coeff_X_pow] at c0 c1 c2 c3
        intro z
        rw [hv, c0, c1, c2, c3]; ring
      refine Set.Finite.subset (P.roots.toFinset.finite_toSet) ?_
      rintro s ⟨hs, -⟩
      simp only [Finset.mem_coe, Multiset.mem_toFinset, Polynomial.mem_roots hP, Polynomial.IsRoot.def]
      simp only [P, Polynomial.eval_add, Polynomial.eval_mul, Polynomial.eval_C, Polynomial.eval_X,
        Polynomial.eval_pow]
      simp only at hs
      rw [hv] at hs
      simp only at hs
      linarith
  have hall : (⋃ t ∈ {t | t ∈ L}, {s : ℝ | vol4 ⟨y.x + s, y.y + s ^ 2, y.z + s ^ 3⟩ t.1 t.2.1 t.2.2 = 0 ∧
        ¬ Aligned t.1 t.2.1 t.2.2}).Finite :=
    Set.Finite.biUnion (List.finite_toSet L) fun t _ => hfin t
  have hδ : 0 < min ε 1 := lt_min hε one_pos
  obtain ⟨s, ⟨hs0, hs1⟩, hs⟩ := ((Set.Ioo_infinite hδ).sdiff hall).nonempty
  have hse : s < ε := lt_of_lt_of_le hs1 (min_le_left _ _)
  have hs1 : s < 1 := lt_of_lt_of_le hs1 (min_le_right _ _)
  have hs2 : s ^ 2 < ε := by nlinarith
  have hs3 : s ^ 3 < ε := by
    have : s ^ 3 = s * s ^ 2 := by ring
    have h2 : 0 < s ^ 2 := by positivity
    nlinarith
  refine ⟨⟨y.x + s, y.y + s ^ 2, y.z + s ^ 3⟩, ⟨?_, ?_, ?_⟩, ?_⟩
  · simp only [add_sub_cancel_left]; rw [abs_of_pos hs0]; exact hse
  · simp only [add_sub_cancel_left]; rw [abs_of_pos (by positivity)]; exact hs2
  · simp only [add_sub_cancel_left]; rw [abs_of_pos (by positivity)]; exact hs3
  · intro t ht
    by_contra hn
    push Not at hn
    apply hs
    simp only [Set.mem_iUnion, Set.mem_ofPred_eq]
    exact ⟨t, ht, hn⟩

/-! ## One triangle and a moving probe -/

theorem aligned_cross {u v w : Vec3} (h : Aligned u v w) :
    (v.y - u.y) * (w.z - u.z) - (v.z - u.z) * (w.y - u.y) = 0 ∧
    (v.z - u.z) * (w.x - u.x) - (v.x - u.x) * (w.z - u.z) = 0 ∧
    (v.x - u.x) * (w.y - u.y) - (v.y - u.y) * (w.x - u.x) = 0 := by
  apply flat_cross
  intro x
  have := h x
  rw [(vol4_side x u v w).1] at this
  linarith

theorem aligned_of_cross {u v w : Vec3}
    (h1 : (v.y - u.y) * (w.z - u.z) - (v.z - u.z) * (w.y - u.y) = 0)
    (h2 : (v.z - u.z) * (w.x - u.x) - (v.x - u.x) * (w.z - u.z) = 0)
    (h3 : (v.x - u.x) * (w.y - u.y) - (v.y - u.y) * (w.x - u.x) = 0) : Aligned u v w := by
  intro z
  rw [(vol4_side z u v w).1]
  simp only [side]
  linear_combination (-(z.x - u.x)) * h1 - (z.y - u.y) * h2 - (z.z - u.z) * h3

theorem aligned_rot {u v w : Vec3} (h : Aligned u v w) : Aligned v w u := by
  intro z
  have := h z
  simp only [vol4_eq] at *
  linarith

/-- A point in line with two edges at a corner is the corner, or the triangle is degenerate. -/
theorem aligned_corner {x a b c : Vec3} (h1 : Aligned x a b) (h2 : Aligned x b c)
    (hx : x ≠ b) : Aligned a b c := by
  obtain ⟨p1, p2, p3⟩ := aligned_cross h1
  obtain ⟨q1, q2, q3⟩ := aligned_cross h2
  have hne : ¬ (b.x - x.x = 0 ∧ b.y - x.y = 0 ∧ b.z - x.z = 0) := by
    rintro ⟨e1, e2, e3⟩
    apply hx
    ext <;> linarith
  obtain ⟨k, k1, k2, k3⟩ := parallel_of_cross (a := ⟨b.x - x.x, b.y - x.y, b.z - x.z⟩)
    (b := ⟨a.x - x.x, a.y - x.y, a.z - x.z⟩) (by simp only; linarith) (by simp only; linarith)
    (by simp only; linarith) hne
  obtain ⟨l, l1, l2, l3⟩ := parallel_of_cross (a := ⟨b.x - x.x, b.y - x.y, b.z - x.z⟩)
    (b := ⟨c.x - x.x, c.y - x.y, c.z - x.z⟩) q1 q2 q3 hne
  simp only at k1 k2 k3 l1 l2 l3
  have ex : a.x = x.x + k * (b.x - x.x) := by linarith
  have ey : a.y = x.y + k * (b.y - x.y) := by linarith
  have ez : a.z = x.z + k * (b.z - x.z) := by linarith
  have fx : c.x = x.x + l * (b.x - x.x) := by linarith
  have fy : c.y = x.y + l * (b.y - x.y) := by linarith
  have fz : c.z = x.z + l * (b.z - x.z) := by linarith
  intro z
  rw [vol4_eq, ex, ey, ez, fx, fy, fz]
  ring

theorem inTri_edge {a b c : Vec3} {s : ℝ} (h0 : 0 ≤ s) (h1 : s ≤ 1) :
    InTri (a, b, c) (lerp a b s) := by
  refine ⟨1 - s, s, 0, by linarith, h0, le_rfl, by ring, ?_⟩
  ext <;> simp only [lerp] <;> ring

theorem inTri_rot {a b c x : Vec3} (h : InTri (b, c, a) x) : InTri (a, b, c) x := by
  obtain ⟨u, v, w, hu, hv, hw, hs, e⟩ := h
  refine ⟨w, u, v, hw, hu, hv, by linarith, ?_⟩
  rw [e]; ext <;> simp only <;> ring

/-- A point of the line through an edge, outside the edge, in a plane: the plane does not separate the
ends of the edge. -/
theorem sep_of_aligned {x a b : Vec3} {t : Vec3 × Vec3 × Vec3} (h : Aligned x a b)
    (hx : ∀ s, 0 ≤ s → s ≤ 1 → x ≠ lerp a b s) (ht : side t x = 0) : sep (side t a) (side t b) = 0 := by
  obtain ⟨p1, p2, p3⟩ := aligned_cross h
  by_cases hne : b.x - a.x = 0 ∧ b.y - a.y = 0 ∧ b.z - a.z = 0
  · have : a = b := by
      obtain ⟨e1, e2, e3⟩ := hne
      ext <;> linarith
    rw [this]; simp [sep]
  · obtain ⟨k, k1, k2, k3⟩ := parallel_of_cross (a := ⟨b.x - a.x, b.y - a.y, b.z - a.z⟩)
      (b := ⟨x.x - a.x, x.y - a.y, x.z - a.z⟩) (by simp only; linarith) (by simp only; linarith)
      (by simp only; linarith) hne
    simp only at k1 k2 k3
    have e : x = lerp a b k := by ext <;> simp only [lerp] <;> linarith
    have hs : side t x = (1 - k) * side t a + k * side t b := by
      rw [e]; simp only [lerp, side]; ring
    rw [hs] at ht
    generalize side t a = A at *
    generalize side t b = B at *
    unfold sep
    rw [if_pos]
    rcases lt_or_ge k 0 with hk | hk
    · constructor
      · intro hA
        by_contra hn; push Not at hn
        have := mul_pos_of_neg_of_neg hk hn
        have := mul_nonneg (by linarith : 0 ≤ 1 - k) hA
        linarith
      · intro hB
        by_contra hn; push Not at hn
        have := mul_neg_of_pos_of_neg (by linarith : 0 < 1 - k) hn
        have := mul_nonpos_of_nonpos_of_nonneg hk.le hB
        linarith
    · have hk1 : 1 < k := by
        by_contra hn; push Not at hn
        exact hx k hk hn e
      constructor
      · intro hA
        by_contra hn; push Not at hn
        have := mul_neg_of_pos_of_neg (by linarith : 0 < k) hn
        have := mul_nonpos_of_nonpos_of_nonneg (by linarith : 1 - k ≤ 0) hA
        linarith
      · intro hB
        by_contra hn; push Not at hn
        have := mul_pos_of_neg_of_neg (by linarith : 1 - k < 0) hn
        have := mul_nonneg (by linarith : 0 ≤ k) hB
        linarith

theorem coplanar_vol4 {a1 a2 a3 x q b c : Vec3} (hf : ¬ Aligned a1 a2 a3)
    (hx : side (a1, a2, a3) x = 0) (hq : side (a1, a2, a3) q = 0)
    (hb : side (a1, a2, a3) b = 0) (hc : side (a1, a2, a3) c = 0) : vol4 x q b c = 0 := by
  rw [vol4_coplanar]
  obtain ⟨n, hn⟩ : ∃ n : Vec3, n = ⟨(a2.y - a1.y) * (a3.z - a1.z) - (a2.z - a1.z) * (a3.y - a1.y),
    (a2.z - a1.z) * (a3.x - a1.x) - (a2.x - a1.x) * (a3.z - a1.z),
    (a2.x - a1.x) * (a3.y - a1.y) - (a2.y - a1.y) * (a3.x - a1.x)⟩ := ⟨_, rfl⟩
  refine ⟨n, n.x * a1.x + n.y * a1.y + n.z * a1.z, ?_, ?_⟩
  · intro h0
    rw [hn, Vec3.mk.injEq] at h0
    exact hf (aligned_of_cross h0.1 h0.2.1 h0.2.2)
  · intro p hp
    have hs : side (a1, a2, a3) p = 0 := by
      simp only [List.mem_cons, List.not_mem_nil, or_false] at hp
      rcases hp with rfl | rfl | rfl | rfl <;> assumption
    rw [hn]
    simp only [side] at hs ⊢
    linarith

theorem side_corners (a b c : Vec3) : side (a, b, c) a = 0 ∧ side (a, b, c) b = 0 ∧ side (a, b, c) c = 0 := by
  refine ⟨?_, ?_, ?_⟩ <;> simp only [side] <;> ring

/-- The segment from `x` to `q` is not in the plane of the triangle and passes no corner. (Device of the
proofs.) -/
def Sound (x q : Vec3) (t : Vec3 × Vec3 × Vec3) : Prop :=
  ¬ (vol4 x q t.1 t.2.1 = 0 ∧ vol4 x q t.2.1 t.2.2 = 0 ∧ vol4 x q t.2.2 t.1 = 0) ∧
  (TwoNZ (vol4 x q t.1 t.2.1) (vol4 x q t.2.1 t.2.2) (vol4 x q t.2.2 t.1) ∨
    sep (side t x) (side t q) = 0)

theorem twoNZ_generic {x z a1 a2 a3 : Vec3} (hf : ¬ Aligned a1 a2 a3) (hx : ¬ InTri (a1, a2, a3) x)
    (h12 : vol4 z x a1 a2 ≠ 0 ∨ Aligned x a1 a2) (h23 : vol4 z x a2 a3 ≠ 0 ∨ Aligned x a2 a3)
    (h31 : vol4 z x a3 a1 ≠ 0 ∨ Aligned x a3 a1) :
    TwoNZ (vol4 z x a1 a2) (vol4 z x a2 a3) (vol4 z x a3 a1) := by
  obtain ⟨i1, i2, i3⟩ := inTri_corners a1 a2 a3
  have n12 : ¬ (vol4 z x a1 a2 = 0 ∧ vol4 z x a2 a3 = 0) := fun h =>
    hf (aligned_corner (h12.resolve_left (by simp [h.1])) (h23.resolve_left (by simp [h.2]))
      (fun e => hx (e ▸ i2)))
  have n23 : ¬ (vol4 z x a2 a3 = 0 ∧ vol4 z x a3 a1 = 0) := fun h =>
    hf (aligned_rot (aligned_rot (aligned_corner (h23.resolve_left (by simp [h.1]))
      (h31.resolve_left (by simp [h.2])) (fun e => hx (e ▸ i3)))))
  have n31 : ¬ (vol4 z x a3 a1 = 0 ∧ vol4 z x a1 a2 = 0) := fun h =>
    hf (aligned_rot (aligned_corner (h31.resolve_left (by simp [h.1])) (h12.resolve_left (by simp [h.2]))
      (fun e => hx (e ▸ i1))))
  unfold TwoNZ
  by_cases z1 : vol4 z x a1 a2 = 0
  · have z2 : vol4 z x a2 a3 ≠ 0 := fun h => n12 ⟨z1, h⟩
    have z3 : vol4 z x a3 a1 ≠ 0 := fun h => n31 ⟨h, z1⟩
    exact .inr (.inl ⟨z2, z3⟩)
  · by_cases z2 : vol4 z x a2 a3 = 0
    · exact .inr (.inr ⟨fun h => n23 ⟨z2, h⟩, z1⟩)
    · exact .inl ⟨z1, z2⟩

theorem flat_side {a1 a2 a3 : Vec3} (hf : Aligned a1 a2 a3) (p : Vec3) : side (a1, a2, a3) p = 0 := by
  have := hf p
  rw [(vol4_side p a1 a2 a3).1] at this
  linarith

/-- A point in general position makes a sound probe. -/
theorem sound_generic {x z q a1 a2 a3 : Vec3} (hq : ¬ InTri (a1, a2, a3) q)
    (hG : ¬ (vol4 x q a1 a2 = 0 ∧ vol4 x q a2 a3 = 0 ∧ vol4 x q a3 a1 = 0))
    (h12 : vol4 z q a1 a2 ≠ 0 ∨ Aligned q a1 a2) (h23 : vol4 z q a2 a3 ≠ 0 ∨ Aligned q a2 a3)
    (h31 : vol4 z q a3 a1 ≠ 0 ∨ Aligned q a3 a1) : Sound z q (a1, a2, a3) := by
  constructor
  · rintro ⟨e1, e2, e3⟩
    exact hG ⟨(h12.resolve_left (by simpa using e1)) x, (h23.resolve_left (by simpa using e2)) x,
      (h31.resolve_left (by simpa using e3)) x⟩
  · by_cases hf : Aligned a1 a2 a3
    · right; rw [flat_side hf, flat_side hf]; simp [sep]
    · left; exact twoNZ_generic hf hq h12 h23 h31

/-- When the start of a probe moves from `x` to a point `z` in general position, the crossings change by
those of the edges of the triangle with the swept triangle. -/
theorem tri_step {x z q a1 a2 a3 : Vec3} (hx : ¬ InTri (a1, a2, a3) x) (hq : ¬ InTri (a1, a2, a3) q)
    (hG : Sound x q (a1, a2, a3))
    (hz : ∀ u ∈ [x, q, a1, a2, a3], ∀ v ∈ [x, q, a1, a2, a3], ∀ w ∈ [x, q, a1, a2, a3],
      vol4 z u v w ≠ 0 ∨ Aligned u v w) :
    pass x z (a1, a2, a3) + pass z q (a1, a2, a3) + pass q x (a1, a2, a3) =
      pass a1 a2 (x, z, q) + pass a2 a3 (x, z, q) + pass a3 a1 (x, z, q) := by
  have m0 : x ∈ [x, q, a1, a2, a3] := by simp
  have mq : q ∈ [x, q, a1, a2, a3] := by simp
  have m1 : a1 ∈ [x, q, a1, a2, a3] := by simp
  have m2 : a2 ∈ [x, q, a1, a2, a3] := by simp
  have m3 : a3 ∈ [x, q, a1, a2, a3] := by simp
  by_cases hf : Aligned a1 a2 a3
  · rw [pass_flat (flat_side hf)]
    simp only [pass, flat_side hf]
    ring
  obtain ⟨hnz, hG⟩ := hG
  simp only at hnz hG
  have hzA : side (a1, a2, a3) z ≠ 0 := by
    rcases hz a1 m1 a2 m2 a3 m3 with h | h
    · intro h0; rw [(vol4_side z a1 a2 a3).1, h0] at h; simp at h
    · exact absurd h hf
  obtain ⟨c1, c2, c3⟩ := side_corners a1 a2 a3
  have hxq : side (a1, a2, a3) x ≠ 0 ∨ side (a1, a2, a3) q ≠ 0 := by
    by_contra hn
    push Not at hn
    exact hnz ⟨coplanar_vol4 hf hn.1 hn.2 c1 c2, coplanar_vol4 hf hn.1 hn.2 c2 c3,
      coplanar_vol4 hf hn.1 hn.2 c3 c1⟩
  have hA : TwoNZ (side (a1, a2, a3) x) (side (a1, a2, a3) z) (side (a1, a2, a3) q) := by
    rcases hxq with h | h
    · exact .inl ⟨h, hzA⟩
    · exact .inr (.inl ⟨hzA, h⟩)
  -- at most one corner is in the swept plane
  have hBz : ∀ b ∈ [x, q, a1, a2, a3], side (x, z, q) b = 0 → Aligned x q b := by
    intro b hb h0
    rcases hz x m0 q mq b hb with h | h
    · exfalso; apply h
      have : vol4 z x q b = -side (x, z, q) b := by simp only [vol4_eq, side]; ring
      rw [this, h0, neg_zero]
    · exact h
  have alq : ∀ b c, Aligned x q b → vol4 x q b c = 0 ∧ vol4 x q c b = 0 := by
    intro b c h
    have := h c
    have e1 : vol4 x q b c = -vol4 c x q b := by simp only [vol4_eq]; ring
    have e2 : vol4 x q c b = vol4 c x q b := by simp only [vol4_eq]; ring
    rw [e1, e2, this]; simp
  have hB : TwoNZ (side (x, z, q) a1) (side (x, z, q) a2) (side (x, z, q) a3) := by
    by_cases b1 : side (x, z, q) a1 = 0
    · have h1 := hBz a1 m1 b1
      refine .inr (.inl ⟨fun b2 => ?_, fun b3 => ?_⟩)
      · exact hnz ⟨(alq a1 a2 h1).1, (alq a2 a3 (hBz a2 m2 b2)).1, (alq a1 a3 h1).2⟩
      · exact hnz ⟨(alq a1 a2 h1).1, (alq a3 a2 (hBz a3 m3 b3)).2, (alq a1 a3 h1).2⟩
    · by_cases b2 : side (x, z, q) a2 = 0
      · refine .inr (.inr ⟨fun b3 => ?_, b1⟩)
        have h2 := hBz a2 m2 b2
        exact hnz ⟨(alq a2 a1 h2).2, (alq a2 a3 h2).1, (alq a3 a1 (hBz a3 m3 b3)).1⟩
      · exact .inl ⟨b1, b2⟩
  -- rows
  have row : ∀ a ∈ [x, q, a1, a2, a3], ∀ b ∈ [x, q, a1, a2, a3],
      (∀ s, 0 ≤ s → s ≤ 1 → InTri (a1, a2, a3) (lerp a b s)) →
      TwoNZ (vol4 a b x z) (vol4 a b z q) (vol4 a b q x) ∨ sep (side (x, z, q) a) (side (x, z, q) b) = 0 := by
    intro a ha b hb hin
    obtain ⟨s1, s2, s3⟩ := side_corners x z q
    rcases hz x m0 a ha b hb with h | h
    · rcases hz q mq a ha b hb with h' | h'
      · left; left
        constructor
        · intro h0; apply h
          have : vol4 z x a b = -vol4 a b x z := by simp only [vol4_eq]; ring
          rw [this, h0, neg_zero]
        · rw [vol4_comm z q a b]; exact h'
      · right
        exact sep_of_aligned h' (fun s h0 h1 e => hq (by rw [e]; exact hin s h0 h1)) s3
    · right
      exact sep_of_aligned h (fun s h0 h1 e => hx (by rw [e]; exact hin s h0 h1)) s1
  have r1 := row a1 m1 a2 m2 (fun s h0 h1 => inTri_edge h0 h1)
  have r2 := row a2 m2 a3 m3 (fun s h0 h1 => inTri_rot (inTri_edge h0 h1))
  have r3 := row a3 m3 a1 m1 (fun s h0 h1 => inTri_rot (inTri_rot (inTri_edge h0 h1)))
  -- columns
  have k1 : TwoNZ (vol4 x z a1 a2) (vol4 x z a2 a3) (vol4 x z a3 a1) := by
    rw [vol4_swap z x, vol4_swap z x, vol4_swap z x]
    exact (twoNZ_generic hf hx (hz x m0 a1 m1 a2 m2) (hz x m0 a2 m2 a3 m3) (hz x m0 a3 m3 a1 m1)).opp
  have k2 := twoNZ_generic hf hq (hz q mq a1 m1 a2 m2) (hz q mq a2 m2 a3 m3) (hz q mq a3 m3 a1 m1)
  have k3 : TwoNZ (vol4 q x a1 a2) (vol4 q x a2 a3) (vol4 q x a3 a1) ∨
      sep (side (a1, a2, a3) q) (side (a1, a2, a3) x) = 0 := by
    rw [vol4_swap x q, vol4_swap x q, vol4_swap x q, sep_comm]
    exact hG.imp_left TwoNZ.opp
  exact (pass_two r1 r2 r3 (.inl k1) (.inl k2) k3 hA hB).symm

/-! ## A closed mesh -/

/-- Twice the crossing number of the probe from `x` to `q`. (Device of the proofs.) -/
noncomputable def total (q : Vec3) (ts : List (Vec3 × Vec3 × Vec3)) (x : Vec3) : ℤ :=
  (ts.map (pass x q)).sum

/-- The edges of a closed mesh cancel. -/
theorem closed_sum {ts : List (Vec3 × Vec3 × Vec3)} (h : ClosedSoup ts) (t : Vec3 × Vec3 × Vec3) :
    (ts.map fun a => pass a.1 a.2.1 t + pass a.2.1 a.2.2 t + pass a.2.2 a.1 t).sum = 0 := by
  have e : ∀ l : List (Vec3 × Vec3 × Vec3),
      (l.map fun a => pass a.1 a.2.1 t + pass a.2.1 a.2.2 t + pass a.2.2 a.1 t).sum =
        ((l.flatMap rim).map fun e => pass e.1 e.2 t).sum := by
    intro l
    induction l with
    | nil => rfl
    | cons a l ih =>
      simp only [List.map_cons, List.sum_cons, List.flatMap_cons, List.map_append, List.sum_append, ih, rim,
        List.map_nil, List.sum_nil]
      ring
  rw [e]
  have h1 := (h.map fun e : Vec3 × Vec3 => pass e.1 e.2 t).sum_eq
  rw [List.map_map] at h1
  have h2 : ((fun e : Vec3 × Vec3 => pass e.1 e.2 t) ∘ Prod.swap) = fun e => -pass e.1 e.2 t := by
    funext e; simp only [Function.comp, Prod.fst_swap, Prod.snd_swap]; exact pass_swap _ _ _
  rw [h2] at h1
  have h3 : ∀ l : List (Vec3 × Vec3), (l.map fun e => -pass e.1 e.2 t).sum =
      -(l.map fun e => pass e.1 e.2 t).sum := by
    intro l
    induction l with
    | nil => rfl
    | cons a l ih => simp only [List.map_cons, List.sum_cons, ih]; ring
  rw [h3] at h1
  omega

/-- A segment that does not touch the triangle does not cross it. -/
theorem pass_avoid {x z : Vec3} {t : Vec3 × Vec3 × Vec3}
    (h : ∀ s, 0 ≤ s → s ≤ 1 → ¬ InTri t (lerp x z s)) : pass x z t = 0 := by
  obtain ⟨a, b, c⟩ := t
  by_contra hn
  unfold pass at hn
  rw [mul_eq_zero, not_or] at hn
  obtain ⟨h1, h2⟩ := hn
  have hprod : side (a, b, c) x * side (a, b, c) z ≤ 0 ∧ side (a, b, c) x ≠ side (a, b, c) z := by
    rcases lt_or_ge (side (a, b, c) x) 0 with g | g <;> rcases lt_or_ge (side (a, b, c) z) 0 with g' | g'
    · exfalso; apply h1; rw [up_neg g, up_neg g']; rfl
    · exact ⟨mul_nonpos_of_nonpos_of_nonneg g.le g', by linarith⟩
    · exact ⟨mul_nonpos_of_nonneg_of_nonpos g g'.le, by linarith⟩
    · exfalso; apply h1; rw [up_pos g, up_pos g']; rfl
  have hpat : (0 ≤ vol4 x z a b ∧ 0 ≤ vol4 x z b c ∧ 0 ≤ vol4 x z c a) ∨
     (vol4 x z a b ≤ 0 ∧ vol4 x z b c ≤ 0 ∧ vol4 x z c a ≤ 0) := by
    by_contra hp
    apply h2
    unfold touch
    rw [if_neg hp]
  obtain ⟨s, h0, h1, hs⟩ := (seg_pattern hprod.2).2 ⟨(tri_pattern hprod.2).1 hpat, hprod.1⟩
  exact h s h0 h1 hs

/-- Moving the start of the probe to a point in general position changes the crossing number by the passes
on the way. -/
theorem total_jump {q x z : Vec3} {ts : List (Vec3 × Vec3 × Vec3)} (hc : ClosedSoup ts)
    (hq : ∀ t ∈ ts, ¬ InTri t q) (hx : ∀ t ∈ ts, ¬ InTri t x) (hG : ∀ t ∈ ts, Sound x q t)
    (hz : ∀ t ∈ ts, ∀ u ∈ [x, q, t.1, t.2.1, t.2.2], ∀ v ∈ [x, q, t.1, t.2.1, t.2.2],
      ∀ w ∈ [x, q, t.1, t.2.1, t.2.2], vol4 z u v w ≠ 0 ∨ Aligned u v w) :
    total q ts x = total q ts z + (ts.map (pass x z)).sum := by
  have key : ∀ l : List (Vec3 × Vec3 × Vec3), (∀ t ∈ l, t ∈ ts) →
      total q l z - total q l x + (l.map (pass x z)).sum =
        (l.map fun a => pass a.1 a.2.1 (x, z, q) + pass a.2.1 a.2.2 (x, z, q)
          + pass a.2.2 a.1 (x, z, q)).sum := by
    intro l hl
    induction l with
    | nil => rfl
    | cons t l ih =>
      obtain ⟨t1, t2, t3⟩ := t
      have h1 := tri_step (hx _ (hl _ (by simp))) (hq _ (hl (t1, t2, t3) (by simp))) (hG _ (hl (t1, t2, t3) (by simp)))
        (hz _ (hl (t1, t2, t3) (by simp)))
      have h2 := ih (fun t' ht' => hl t' (by simp [ht']))
      rw [pass_swap x q] at h1
      simp only [total, List.map_cons, List.sum_cons] at h2 ⊢
      omega
  have := key ts (fun _ h => h)
  rw [closed_sum hc] at this
  omega

/-- Moving the start of the probe to a point in general position without touching the mesh does not change
the crossing number. -/
theorem total_step {q x z : Vec3} {ts : List (Vec3 × Vec3 × Vec3)} (hc : ClosedSoup ts)
    (hq : ∀ t ∈ ts, ¬ InTri t q) (hx : ∀ t ∈ ts, ¬ InTri t x) (hG : ∀ t ∈ ts, Sound x q t)
    (hseg : ∀ t ∈ ts, ∀ s, 0 ≤ s → s ≤ 1 → ¬ InTri t (lerp x z s))
    (hz : ∀ t ∈ ts, ∀ u ∈ [x, q, t.1, t.2.1, t.2.2], ∀ v ∈ [x, q, t.1, t.2.1, t.2.2],
      ∀ w ∈ [x, q, t.1, t.2.1, t.2.2], vol4 z u v w ≠ 0 ∨ Aligned u v w) :
    total q ts x = total q ts z := by
  rw [total_jump hc hq hx hG hz, List.sum_eq_zero (l := ts.map (pass x z)), add_zero]
  intro n hn
  obtain ⟨t, ht, rfl⟩ := List.mem_map.1 hn
  exact pass_avoid (hseg t ht)

/-! ## Paths -/

/-- A point off a triangle has a neighbourhood off it. -/
theorem off_near {t : Vec3 × Vec3 × Vec3} {y : Vec3} (h : ¬ InTri t y) :
    ∃ ε > 0, ∀ z, Near ε y z → ¬ InTri t z := by
  let K : Set (ℝ × ℝ) := {w | 0 ≤ w.1 ∧ 0 ≤ w.2 ∧ w.1 + w.2 ≤ 1}
  have hK : IsCompact K := by
    refine (isCompact_Icc (a := ((0:ℝ), (0:ℝ))) (b := (1, 1))).of_isClosed_subset ?_ ?_
    · exact (isClosed_le continuous_const continuous_fst).inter
        ((isClosed_le continuous_const continuous_snd).inter
          (isClosed_le (continuous_fst.add continuous_snd) continuous_const))
    · rintro ⟨a, b⟩ ⟨ha, hb, hs⟩
      simp only at ha hb hs
      exact ⟨⟨ha, hb⟩, ⟨by simp only; linarith, by simp only; linarith⟩⟩
  let F : ℝ × ℝ → ℝ × ℝ × ℝ := fun w =>
    (w.1 * t.1.x + w.2 * t.2.1.x + (1 - w.1 - w.2) * t.2.2.x,
     w.1 * t.1.y + w.2 * t.2.1.y + (1 - w.1 - w.2) * t.2.2.y,
     w.1 * t.1.z + w.2 * t.2.1.z + (1 - w.1 - w.2) * t.2.2.z)
  have hF : Continuous F := by fun_prop
  have hcl : IsClosed (F '' K) := (hK.image hF).isClosed
  have hmem : ∀ z : Vec3, (z.x, z.y, z.z) ∈ F '' K ↔ InTri t z := by
    intro z
    constructor
    · rintro ⟨⟨a, b⟩, ⟨ha, hb, hs⟩, e⟩
      simp only [F, Prod.mk.injEq] at e ha hb hs
      refine ⟨a, b, 1 - a - b, ha, hb, by linarith, by ring, ?_⟩
      ext
      · exact e.1.symm
      · exact e.2.1.symm
      · exact e.2.2.symm
    · rintro ⟨a, b, c, ha, hb, hc, hs, e⟩
      refine ⟨(a, b), ⟨ha, hb, by simp only; linarith⟩, ?_⟩
      have : 1 - a - b = c := by linarith
      simp only [F, this, e]
  have hy : (y.x, y.y, y.z) ∈ (F '' K)ᶜ := by rw [Set.mem_compl_iff, hmem]; exact h
  obtain ⟨ε, hε, hb⟩ := Metric.isOpen_iff.1 hcl.isOpen_compl _ hy
  refine ⟨ε, hε, ?_⟩
  rintro z ⟨h1, h2, h3⟩ hz
  have : (z.x, z.y, z.z) ∈ Metric.ball (y.x, y.y, y.z) ε := by
    simp only [Metric.mem_ball, Prod.dist_eq, Real.dist_eq]
    exact max_lt h1 (max_lt h2 h3)
  exact hb this ((hmem z).2 hz)

theorem off_near_all {ts : List (Vec3 × Vec3 × Vec3)} {y : Vec3} (h : ∀ t ∈ ts, ¬ InTri t y) :
    ∃ ε > 0, ∀ t ∈ ts, ∀ z, Near ε y z → ¬ InTri t z := by
  induction ts with
  | nil => exact ⟨1, one_pos, by simp⟩
  | cons t ts ih =>
    obtain ⟨ε, hε, h1⟩ := off_near (h t (by simp))
    obtain ⟨δ, hδ, h2⟩ := ih (fun t ht => h t (by simp [ht]))
    refine ⟨min ε δ, lt_min hε hδ, ?_⟩
    rintro t' ht' z ⟨a, b, c⟩
    rcases List.mem_cons.1 ht' with rfl | ht'
    · exact h1 z ⟨lt_of_lt_of_le a (min_le_left _ _), lt_of_lt_of_le b (min_le_left _ _),
        lt_of_lt_of_le c (min_le_left _ _)⟩
    · exact h2 t' ht' z ⟨lt_of_lt_of_le a (min_le_right _ _), lt_of_lt_of_le b (min_le_right _ _),
        lt_of_lt_of_le c (min_le_right _ _)⟩

theorem near_lerp {ε : ℝ} {y a b : Vec3} (ha : Near ε y a) (hb : Near ε y b) {s : ℝ} (h0 : 0 ≤ s)
    (h1 : s ≤ 1) : Near ε y (lerp a b s) := by
  have key : ∀ u v w : ℝ, |u - w| < ε → |v - w| < ε → |u + s * (v - u) - w| < ε := by
    intro u v w hu hv
    rw [abs_lt] at *
    have e : u + s * (v - u) - w = (1 - s) * (u - w) + s * (v - w) := by ring
    rw [e]
    rcases h0.lt_or_eq with h0 | h0
    · have a1 := mul_lt_mul_of_pos_left hv.1 h0
      have a2 := mul_lt_mul_of_pos_left hv.2 h0
      have b1 := mul_le_mul_of_nonneg_left hu.1.le (by linarith : 0 ≤ 1 - s)
      have b2 := mul_le_mul_of_nonneg_left hu.2.le (by linarith : 0 ≤ 1 - s)
      constructor <;> linarith
    · rw [← h0]; constructor <;> linarith
  exact ⟨key _ _ _ ha.1 hb.1, key _ _ _ ha.2.1 hb.2.1, key _ _ _ ha.2.2 hb.2.2⟩

theorem near_mono {ε δ : ℝ} {y a : Vec3} (h : Near ε y a) (hd : ε ≤ δ) : Near δ y a :=
  ⟨lt_of_lt_of_le h.1 hd, lt_of_lt_of_le h.2.1 hd, lt_of_lt_of_le h.2.2 hd⟩

theorem near_trans {ε δ : ℝ} {y a b : Vec3} (h : Near ε y a) (h' : Near δ a b) : Near (ε + δ) y b := by
  have key : ∀ u v w : ℝ, |v - u| < ε → |w - v| < δ → |w - u| < ε + δ := by
    intro u v w hu hv
    rw [abs_lt] at *
    constructor <;> linarith
  exact ⟨key _ _ _ h.1 h'.1, key _ _ _ h.2.1 h'.2.1, key _ _ _ h.2.2 h'.2.2⟩

theorem near_symm {ε : ℝ} {y a : Vec3} (h : Near ε y a) : Near ε a y := by
  unfold Near at *
  rwa [abs_sub_comm y.x, abs_sub_comm y.y, abs_sub_comm y.z]

/-- Corners of all triangles. (Device of the proofs.) -/
def cornerList (ts : List (Vec3 × Vec3 × Vec3)) : List Vec3 := ts.flatMap fun t => [t.1, t.2.1, t.2.2]

/-- All triples of points of a list. (Device of the proofs.) -/
def triples (Q : List Vec3) : List (Vec3 × Vec3 × Vec3) :=
  Q.flatMap fun u => Q.flatMap fun v => Q.map fun w => (u, v, w)

theorem mem_triples {Q : List Vec3} {u v w : Vec3} (hu : u ∈ Q) (hv : v ∈ Q) (hw : w ∈ Q) :
    (u, v, w) ∈ triples Q := by
  unfold triples
  simp only [List.mem_flatMap, List.mem_map]
  exact ⟨u, hu, v, hv, w, hw, rfl⟩

theorem mem_corners {ts : List (Vec3 × Vec3 × Vec3)} {t : Vec3 × Vec3 × Vec3} (ht : t ∈ ts) {v : Vec3}
    (hv : v ∈ [t.1, t.2.1, t.2.2]) : v ∈ cornerList ts := by
  unfold cornerList
  rw [List.mem_flatMap]
  exact ⟨t, ht, hv⟩

theorem exists_generic_list (Q : List Vec3) (y : Vec3) {ε : ℝ} (hε : 0 < ε) :
    ∃ z, Near ε y z ∧ ∀ u ∈ Q, ∀ v ∈ Q, ∀ w ∈ Q, vol4 z u v w ≠ 0 ∨ Aligned u v w := by
  obtain ⟨z, nz, hz⟩ := exists_generic (triples Q) y hε
  refine ⟨z, nz, fun u hu v hv w hw => ?_⟩
  have := hz (u, v, w) (mem_triples hu hv hw)
  dsimp only at this
  exact this

/-- The crossing number near a point off the mesh does not depend on where the probe starts. -/
theorem total_local {q y : Vec3} {ts : List (Vec3 × Vec3 × Vec3)} (hc : ClosedSoup ts)
    (hq : ∀ t ∈ ts, ¬ InTri t q) (hy : ∀ t ∈ ts, ¬ InTri t y) :
    ∃ ε > 0, ∀ x x', (∀ t ∈ ts, Sound x q t) → (∀ t ∈ ts, Sound x' q t) → Near ε y x → Near ε y x' →
      total q ts x = total q ts x' := by
  obtain ⟨ε, hε, hoff⟩ := off_near_all hy
  refine ⟨ε, hε, ?_⟩
  intro x x' hx hx' nx nx'
  obtain ⟨z, nz, hz'⟩ := exists_generic_list (x :: x' :: q :: cornerList ts) y hε
  have sub : ∀ t ∈ ts, ∀ o ∈ [x, x'], ∀ u ∈ [o, q, t.1, t.2.1, t.2.2],
      u ∈ x :: x' :: q :: cornerList ts := by
    intro t ht o ho u hu
    simp only [List.mem_cons, List.not_mem_nil, or_false] at ho hu
    rcases hu with rfl | rfl | hu
    · rcases ho with rfl | rfl <;> simp
    · simp
    · have := mem_corners ht (v := u) (by simpa using hu)
      simp [this]
  have e1 := total_step (x := x) (z := z) hc hq (fun t ht => hoff t ht x nx) hx
    (fun t ht s h0 h1 => hoff t ht _ (near_lerp nx nz h0 h1))
    (fun t ht u hu v hv w hw => hz' u (sub t ht x (by simp) u hu) v (sub t ht x (by simp) v hv) w
      (sub t ht x (by simp) w hw))
  have e2 := total_step (x := x') (z := z) hc hq (fun t ht => hoff t ht x' nx') hx'
    (fun t ht s h0 h1 => hoff t ht _ (near_lerp nx' nz h0 h1))
    (fun t ht u hu v hv w hw => hz' u (sub t ht x' (by simp) u hu) v (sub t ht x' (by simp) v hv) w
      (sub t ht x' (by simp) w hw))
  rw [e1, e2]

/-- Near every point there are starts of sound probes. -/
theorem exists_sound {q p : Vec3} {ts : List (Vec3 × Vec3 × Vec3)}
    (hq : ∀ t ∈ ts, ¬ InTri t q) (hp : ∀ t ∈ ts, Sound p q t) (y : Vec3) {ε : ℝ} (hε : 0 < ε) :
    ∃ z, Near ε y z ∧ ∀ t ∈ ts, Sound z q t := by
  obtain ⟨z, nz, hz⟩ := exists_generic_list (q :: cornerList ts) y hε
  refine ⟨z, nz, ?_⟩
  rintro ⟨t1, t2, t3⟩ ht
  have hm : ∀ v ∈ [t1, t2, t3], v ∈ q :: cornerList ts := fun v hv => by
    simp [mem_corners ht hv]
  have m0 : q ∈ q :: cornerList ts := by simp
  have m1 := hm t1 (by simp)
  have m2 := hm t2 (by simp)
  have m3 := hm t3 (by simp)
  have h0 := (hp _ ht).1
  dsimp only at h0
  exact sound_generic (hq _ ht) h0 (hz q m0 _ m1 _ m2) (hz q m0 _ m2 _ m3) (hz q m0 _ m3 _ m1)

/-- All sound probes starting near `y` have the crossing number `n`. (Device of the proofs.) -/
def Value (q : Vec3) (ts : List (Vec3 × Vec3 × Vec3)) (y : Vec3) (n : ℤ) : Prop :=
  ∃ ε > 0, ∀ x, (∀ t ∈ ts, Sound x q t) → Near ε y x → total q ts x = n

/-- Along a path off the mesh the crossing number does not change. -/
theorem value_path {q p : Vec3} {ts : List (Vec3 × Vec3 × Vec3)} (hc : ClosedSoup ts)
    (hq : ∀ t ∈ ts, ¬ InTri t q) (hp : ∀ t ∈ ts, Sound p q t) {f : ℝ → Vec3}
    (cx : ContinuousOn (fun s => (f s).x) (Set.Icc 0 1)) (cy : ContinuousOn (fun s => (f s).y) (Set.Icc 0 1))
    (cz : ContinuousOn (fun s => (f s).z) (Set.Icc 0 1))
    (hf : ∀ s ∈ Set.Icc (0:ℝ) 1, ∀ t ∈ ts, ¬ InTri t (f s)) {n : ℤ} :
    Value q ts (f 0) n ↔ Value q ts (f 1) n := by
  let g : Set.Icc (0:ℝ) 1 → Prop := fun s => Value q ts (f s) n
  have hloc : IsLocallyConstant g := by
    rw [IsLocallyConstant.iff_eventually_eq]
    intro s
    obtain ⟨ε, hε, hl⟩ := total_local hc hq (hf s s.2)
    have c1 := continuousOn_iff_continuous_domRestrict.1 cx
    have c2 := continuousOn_iff_continuous_domRestrict.1 cy
    have c3 := continuousOn_iff_continuous_domRestrict.1 cz
    have n1 := Metric.continuous_iff'.1 c1 s (ε / 2) (by linarith)
    have n2 := Metric.continuous_iff'.1 c2 s (ε / 2) (by linarith)
    have n3 := Metric.continuous_iff'.1 c3 s (ε / 2) (by linarith)
    have key : ∀ y', Near (ε / 2) (f s) y' → (Value q ts y' n ↔
        ∃ x, (∀ t ∈ ts, Sound x q t) ∧ Near ε (f s) x ∧ total q ts x = n) := by
      intro y' hy'
      constructor
      · rintro ⟨δ, hδ, hv⟩
        obtain ⟨z, nz, hz⟩ := exists_sound hq hp y' (lt_min hδ (by linarith : 0 < ε / 2))
        refine ⟨z, hz, ?_, hv z hz (near_mono nz (min_le_left _ _))⟩
        have := near_trans hy' (near_mono nz (min_le_right _ _))
        rwa [add_halves] at this
      · rintro ⟨x, hx, nx, e⟩
        refine ⟨ε / 2, by linarith, ?_⟩
        intro x' hx' nx'
        rw [← e]
        have := near_trans hy' nx'
        rw [add_halves] at this
        exact hl x' x hx' hx this nx
    filter_upwards [n1, n2, n3] with s' h1 h2 h3
    simp only [Set.domRestrict_apply, Real.dist_eq] at h1 h2 h3
    have hn : Near (ε / 2) (f s) (f s') := ⟨h1, h2, h3⟩
    show Value q ts (f s') n = Value q ts (f s) n
    rw [eq_iff_iff, key _ hn, key _ (near_self (by linarith) _)]
  have := hloc.apply_eq_of_preconnectedSpace ⟨0, by simp⟩ ⟨1, by simp⟩
  simpa only [g, eq_iff_iff] using this

/-- Squared distance from the origin. (Device of the proofs.) -/
def n2 (v : Vec3) : ℝ := v.x ^ 2 + v.y ^ 2 + v.z ^ 2

theorem n2_lt {v y : Vec3} (h : Spec.dist v ⟨0, 0, 0⟩ < Spec.dist y ⟨0, 0, 0⟩) : n2 v < n2 y := by
  unfold Spec.dist at h
  have := (Real.sqrt_lt_sqrt_iff (by unfold distSq; positivity)).1 h
  simp only [distSq, sub_zero] at this
  exact this

/-- Points beyond all corners are off the triangle. -/
theorem off_far {t : Vec3 × Vec3 × Vec3} {y : Vec3} (h : ∀ v ∈ [t.1, t.2.1, t.2.2], n2 v < n2 y) :
    ¬ InTri t y := by
  rintro ⟨a, b, c, ha, hb, hc, hs, e⟩
  have h1 := h t.1 (by simp)
  have h2 := h t.2.1 (by simp)
  have h3 := h t.2.2 (by simp)
  have key : ∀ v : Vec3, n2 v < n2 y → v.x * y.x + v.y * y.y + v.z * y.z < n2 y := by
    intro v hv
    unfold n2 at *
    nlinarith [sq_nonneg (v.x - y.x), sq_nonneg (v.y - y.y), sq_nonneg (v.z - y.z)]
  have ex : y.x = a * t.1.x + b * t.2.1.x + c * t.2.2.x := by rw [e]
  have ey : y.y = a * t.1.y + b * t.2.1.y + c * t.2.2.y := by rw [e]
  have ez : y.z = a * t.1.z + b * t.2.1.z + c * t.2.2.z := by rw [e]
  have k1 := key _ h1
  have k2 := key _ h2
  have k3 := key _ h3
  have e' : n2 y = a * (t.1.x * y.x + t.1.y * y.y + t.1.z * y.z)
      + b * (t.2.1.x * y.x + t.2.1.y * y.y + t.2.1.z * y.z)
      + c * (t.2.2.x * y.x + t.2.2.y * y.y + t.2.2.z * y.z) := by
    have : n2 y = y.x * y.x + y.y * y.y + y.z * y.z := by unfold n2; ring
    rw [this]
    linear_combination y.x * ex + y.y * ey + y.z * ez
  generalize t.1.x * y.x + t.1.y * y.y + t.1.z * y.z = A at *
  generalize t.2.1.x * y.x + t.2.1.y * y.y + t.2.1.z * y.z = B at *
  generalize t.2.2.x * y.x + t.2.2.y * y.y + t.2.2.z * y.z = C at *
  generalize n2 y = Y at *
  have p1 := mul_nonneg ha (by linarith : 0 ≤ Y - A)
  have p2 := mul_nonneg hb (by linarith : 0 ≤ Y - B)
  have p3 := mul_nonneg hc (by linarith : 0 ≤ Y - C)
  have hY : a * (Y - A) + b * (Y - B) + c * (Y - C) = 0 := by
    have : a * Y + b * Y + c * Y = Y := by rw [← add_mul, ← add_mul, hs, one_mul]
    linarith
  have z1 : a * (Y - A) = 0 := by linarith
  have z2 : b * (Y - B) = 0 := by linarith
  have z3 : c * (Y - C) = 0 := by linarith
  have a0 : a = 0 := (mul_eq_zero.1 z1).resolve_right (by linarith)
  have b0 : b = 0 := (mul_eq_zero.1 z2).resolve_right (by linarith)
  have c0 : c = 0 := (mul_eq_zero.1 z3).resolve_right (by linarith)
  rw [a0, b0, c0] at hs
  norm_num at hs

/-- Along a straight segment off the mesh the crossing number does not change. -/
theorem value_seg {q p : Vec3} {ts : List (Vec3 × Vec3 × Vec3)} (hc : ClosedSoup ts)
    (hq : ∀ t ∈ ts, ¬ InTri t q) (hp : ∀ t ∈ ts, Sound p q t) {a b : Vec3}
    (h : ∀ s, 0 ≤ s → s ≤ 1 → ∀ t ∈ ts, ¬ InTri t (lerp a b s)) {n : ℤ} :
    Value q ts a n ↔ Value q ts b n := by
  have := value_path (f := fun s => lerp a b s) (n := n) hc hq hp
    (by simp only [lerp]; fun_prop) (by simp only [lerp]; fun_prop) (by simp only [lerp]; fun_prop)
    (fun s hs => h s hs.1 hs.2)
  have e0 : lerp a b 0 = a := by ext <;> simp [lerp]
  have e1 : lerp a b 1 = b := by ext <;> simp [lerp]
  rwa [e0, e1] at this

/-- Around the far end the crossing number is zero. -/
theorem value_end {q : Vec3} {ts : List (Vec3 × Vec3 × Vec3)} (hq : ∀ t ∈ ts, ¬ InTri t q) :
    Value q ts q 0 := by
  obtain ⟨ε, hε, hoff⟩ := off_near_all hq
  refine ⟨ε, hε, ?_⟩
  intro x _ nx
  unfold total
  apply List.sum_eq_zero
  intro n hn
  obtain ⟨t, ht, rfl⟩ := List.mem_map.1 hn
  exact pass_avoid fun s h0 h1 => hoff t ht _ (near_lerp nx (near_self hε q) h0 h1)

/-- Beyond all corners the crossing number is zero. -/
theorem value_far {q p y : Vec3} {ts : List (Vec3 × Vec3 × Vec3)} (hc : ClosedSoup ts)
    (hp : ∀ t ∈ ts, Sound p q t) (hqy : q.y = 0) (hqz : q.z = 0)
    (hq : ∀ t ∈ ts, ∀ v ∈ [t.1, t.2.1, t.2.2], n2 v < n2 q)
    (hy : ∀ t ∈ ts, ∀ v ∈ [t.1, t.2.1, t.2.2], n2 v < n2 y) : Value q ts y 0 := by
  have hq' : ∀ t ∈ ts, ¬ InTri t q := fun t ht => off_far (hq t ht)
  obtain ⟨w, wx, wy, wp⟩ : ∃ w : Vec3, w.x = 0 ∧ 0 ≤ w.y * y.y + w.z * y.z ∧ 0 < n2 w := by
    by_cases h : y.y = 0 ∧ y.z = 0
    · exact ⟨⟨0, 1, 0⟩, rfl, by simp [h.1], by norm_num [n2]⟩
    · refine ⟨⟨0, y.y, y.z⟩, rfl, ?_, ?_⟩
      · simp only; nlinarith [sq_nonneg y.y, sq_nonneg y.z]
      · simp only [n2]
        rcases not_and_or.1 h with h | h
        · have := sq_pos_of_ne_zero (R := ℝ) h; nlinarith [sq_nonneg y.z]
        · have := sq_pos_of_ne_zero (R := ℝ) h; nlinarith [sq_nonneg y.y]
  have hY : 0 ≤ n2 y := by unfold n2; positivity
  have hQ : 0 ≤ n2 q := by unfold n2; positivity
  obtain ⟨k, hk1, hk⟩ : ∃ k : ℝ, 1 ≤ k ∧ 4 * (n2 y + n2 q) ≤ k ^ 2 * n2 w := by
    refine ⟨4 * (n2 y + n2 q) / n2 w + 1, ?_, ?_⟩
    · have : 0 ≤ 4 * (n2 y + n2 q) / n2 w := by positivity
      linarith
    · have h0 : 0 ≤ 4 * (n2 y + n2 q) / n2 w := by positivity
      have e : (4 * (n2 y + n2 q) / n2 w) * n2 w = 4 * (n2 y + n2 q) := by field_simp
      generalize 4 * (n2 y + n2 q) / n2 w = d at *
      have : (d + 1) ^ 2 * n2 w = d * n2 w + (d ^ 2 + d + 1) * n2 w := by ring
      rw [this, e]
      have : 0 ≤ (d ^ 2 + d + 1) * n2 w := by positivity
      linarith
  have half : ∀ s : ℝ, 1 / 2 ≤ (1 - s) ^ 2 + s ^ 2 := by
    intro s; nlinarith [sq_nonneg (2 * s - 1)]
  -- outwards from `y`
  rw [value_seg (b := ⟨2 * y.x, 2 * y.y, 2 * y.z⟩) hc hq' hp]
  rotate_left
  · intro s h0 h1 t ht
    apply off_far
    intro v hv
    refine lt_of_lt_of_le (hy t ht v hv) ?_
    have : n2 (lerp y ⟨2 * y.x, 2 * y.y, 2 * y.z⟩ s) = (1 + s) ^ 2 * n2 y := by
      simp only [n2, lerp]; ring
    rw [this]
    exact le_mul_of_one_le_left hY (by nlinarith)
  rw [value_seg (b := ⟨0, k * w.y, k * w.z⟩) hc hq' hp]
  rotate_left
  · intro s h0 h1 t ht
    apply off_far
    intro v hv
    refine lt_of_lt_of_le (hy t ht v hv) ?_
    have : n2 (lerp ⟨2 * y.x, 2 * y.y, 2 * y.z⟩ ⟨0, k * w.y, k * w.z⟩ s) =
        (1 - s) ^ 2 * (4 * n2 y) + s ^ 2 * (k ^ 2 * n2 w)
          + 4 * (s * (1 - s)) * k * (w.y * y.y + w.z * y.z) := by
      simp only [n2, lerp, wx]; ring
    rw [this]
    have a1 : s ^ 2 * (4 * (n2 y + n2 q)) ≤ s ^ 2 * (k ^ 2 * n2 w) :=
      mul_le_mul_of_nonneg_left hk (sq_nonneg s)
    have a2 : 0 ≤ 4 * (s * (1 - s)) * k * (w.y * y.y + w.z * y.z) := by
      have : 0 ≤ s * (1 - s) := mul_nonneg h0 (by linarith)
      have : 0 ≤ 4 * (s * (1 - s)) * k := by positivity
      exact mul_nonneg this wy
    have a3 := mul_le_mul_of_nonneg_right (half s) hY
    have a4 : 0 ≤ s ^ 2 * n2 q := by positivity
    linarith
  rw [value_seg (b := ⟨2 * q.x, 0, 0⟩) hc hq' hp]
  rotate_left
  · intro s h0 h1 t ht
    apply off_far
    intro v hv
    refine lt_of_lt_of_le (hq t ht v hv) ?_
    have : n2 (lerp ⟨0, k * w.y, k * w.z⟩ ⟨2 * q.x, 0, 0⟩ s) =
        (1 - s) ^ 2 * (k ^ 2 * n2 w) + s ^ 2 * (4 * n2 q) := by
      simp only [n2, lerp, wx, hqy, hqz]; ring
    rw [this]
    have a1 : (1 - s) ^ 2 * (4 * (n2 y + n2 q)) ≤ (1 - s) ^ 2 * (k ^ 2 * n2 w) :=
      mul_le_mul_of_nonneg_left hk (sq_nonneg _)
    have a3 := mul_le_mul_of_nonneg_right (half s) hQ
    have a4 : 0 ≤ (1 - s) ^ 2 * n2 y := by positivity
    linarith
  rw [value_seg (b := q) hc hq' hp]
  · exact value_end hq'
  · intro s h0 h1 t ht
    apply off_far
    intro v hv
    refine lt_of_lt_of_le (hq t ht v hv) ?_
    have : n2 (lerp ⟨2 * q.x, 0, 0⟩ q s) = (2 - s) ^ 2 * n2 q := by
      simp only [n2, lerp, hqy, hqz]; ring
    rw [this]
    exact le_mul_of_one_le_left hQ (by nlinarith)

/-- Joined points have the same crossing number. -/
theorem value_joined {q p : Vec3} {ts : List (Vec3 × Vec3 × Vec3)} (hc : ClosedSoup ts)
    (hq : ∀ t ∈ ts, ¬ InTri t q) (hp : ∀ t ∈ ts, Sound p q t) {a b : Vec3} (h : Joined ts a b) {n : ℤ} :
    Value q ts a n ↔ Value q ts b n := by
  obtain ⟨f, cx, cy, cz, h0, h1, hoff⟩ := h
  rw [← h0, ← h1]
  exact value_path hc hq hp cx cy cz hoff

/-- Around a point outside the crossing number is zero. -/
theorem value_outside {q p y : Vec3} {ts : List (Vec3 × Vec3 × Vec3)} (hc : ClosedSoup ts)
    (hp : ∀ t ∈ ts, Sound p q t) (hqy : q.y = 0) (hqz : q.z = 0)
    (hq : ∀ t ∈ ts, ∀ v ∈ [t.1, t.2.1, t.2.2], n2 v < n2 q) (he : Escapes ts y) : Value q ts y 0 := by
  obtain ⟨y', hj, hfar⟩ := he
  rw [value_joined hc (fun t ht => off_far (hq t ht)) hp hj]
  exact value_far hc hp hqy hqz hq (fun t ht v hv => n2_lt (hfar t ht v hv))

theorem value_self {q p : Vec3} {ts : List (Vec3 × Vec3 × Vec3)} (hp : ∀ t ∈ ts, Sound p q t) {n : ℤ}
    (h : Value q ts p n) : total q ts p = n := by
  obtain ⟨ε, hε, h⟩ := h
  exact h p hp (near_self hε p)

/-- Joined starts of sound probes have the same crossing number. -/
theorem total_joined {q p p' : Vec3} {ts : List (Vec3 × Vec3 × Vec3)} (hc : ClosedSoup ts)
    (hq : ∀ t ∈ ts, ¬ InTri t q) (hp : ∀ t ∈ ts, Sound p q t) (hp' : ∀ t ∈ ts, Sound p' q t)
    (h : Joined ts p p') : total q ts p = total q ts p' := by
  have h0 : Value q ts p (total q ts p) := by
    obtain ⟨f, -, -, -, e0, -, hoff⟩ := h
    have hoff0 := hoff 0 (by simp)
    rw [e0] at hoff0
    obtain ⟨ε, hε, hl⟩ := total_local hc hq hoff0
    exact ⟨ε, hε, fun x hx nx => hl x p hx hp nx (near_self hε p)⟩
  exact (value_self hp' ((value_joined hc hq hp h).1 h0)).symm

/-- A closed mesh is crossed as often outwards as inwards by a sound probe from a point outside. -/
theorem total_outside {q p : Vec3} {ts : List (Vec3 × Vec3 × Vec3)} (hc : ClosedSoup ts)
    (hp : ∀ t ∈ ts, Sound p q t) (hqy : q.y = 0) (hqz : q.z = 0)
    (hq : ∀ t ∈ ts, ∀ v ∈ [t.1, t.2.1, t.2.2], n2 v < n2 q) (he : Escapes ts p) : total q ts p = 0 :=
  value_self hp (value_outside hc hp hqy hqz hq he)

end Geo
