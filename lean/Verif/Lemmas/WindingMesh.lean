import Verif.Lemmas.Winding

/-!
# The crossing number of `Shape::contains` and the crossing number of a closed mesh
-/

namespace Geo

open Spec

theorem not_twoNZ {a b c : ℝ} (h : ¬ TwoNZ a b c) (h0 : ¬ (a = 0 ∧ b = 0 ∧ c = 0)) :
    (a = 0 ∧ b = 0 ∧ c ≠ 0) ∨ (a = 0 ∧ b ≠ 0 ∧ c = 0) ∨ (a ≠ 0 ∧ b = 0 ∧ c = 0) := by
  unfold TwoNZ at h
  by_cases ha : a = 0 <;> by_cases hb : b = 0 <;> by_cases hc : c = 0 <;> simp_all

/-- Where the segment crosses the plane, its ends are strictly on different sides. -/
theorem up_heading {p q v1 v2 v3 : Vec3} (hp : ¬ InTri (v1, v2, v3) p) (hq : ¬ InTri (v1, v2, v3) q)
    (hnz : ¬ (vol4 p q v1 v2 = 0 ∧ vol4 p q v2 v3 = 0 ∧ vol4 p q v3 v1 = 0))
    (hpat : (0 ≤ vol4 p q v1 v2 ∧ 0 ≤ vol4 p q v2 v3 ∧ 0 ≤ vol4 p q v3 v1) ∨
       (vol4 p q v1 v2 ≤ 0 ∧ vol4 p q v2 v3 ≤ 0 ∧ vol4 p q v3 v1 ≤ 0)) :
    (side (v1, v2, v3) p * side (v1, v2, v3) q ≤ 0 →
      up (side (v1, v2, v3) q) - up (side (v1, v2, v3) p) = heading p q (v1, v2, v3)) ∧
    (¬ side (v1, v2, v3) p * side (v1, v2, v3) q ≤ 0 →
      up (side (v1, v2, v3) q) - up (side (v1, v2, v3) p) = 0) := by
  have hsum := side_sum p q v1 v2 v3
  have hE : side (v1, v2, v3) p ≠ side (v1, v2, v3) q := by
    intro h
    apply hnz
    rcases hpat with ⟨a, b, c⟩ | ⟨a, b, c⟩
    · refine ⟨?_, ?_, ?_⟩ <;> linarith
    · refine ⟨?_, ?_, ?_⟩ <;> linarith
  constructor
  · intro hfg
    obtain ⟨s, h0, h1, a, b, c, ha, hb, hc, h, hx⟩ := (seg_pattern hE).2 ⟨(tri_pattern hE).1 hpat, hfg⟩
    have hin : InTri (v1, v2, v3) (lerp p q s) := ⟨a, b, c, ha, hb, hc, h, hx⟩
    obtain ⟨-, -, -, e4⟩ := line_hit h hx
    have p0 : side (v1, v2, v3) p ≠ 0 := by
      intro h0
      rw [h0] at e4 hE
      have : s = 0 := by
        rcases mul_eq_zero.1 (by linarith : s * (side (v1, v2, v3) q - 0) = 0) with h | h
        · exact h
        · exact absurd (by linarith) hE
      apply hp
      rw [this] at hin
      simpa [lerp] using hin
    have q0 : side (v1, v2, v3) q ≠ 0 := by
      intro h0
      rw [h0] at e4 hE
      have : s = 1 := by
        have e : (1 - s) * side (v1, v2, v3) p = 0 := by linarith
        rcases mul_eq_zero.1 e with h | h
        · linarith
        · exact absurd h hE
      apply hq
      rw [this] at hin
      simpa [lerp] using hin
    unfold heading
    rcases lt_or_gt_of_ne p0 with g | g <;> rcases lt_or_gt_of_ne q0 with g' | g'
    · have := mul_pos_of_neg_of_neg g g'; linarith
    · rw [up_pos g'.le, up_neg g, if_pos (by linarith)]; rfl
    · rw [up_neg g', up_pos g.le, if_neg (by linarith)]; rfl
    · have := mul_pos g g'; linarith
  · intro h
    push Not at h
    rcases pos_and_pos_or_neg_and_neg_of_mul_pos h with ⟨g, g'⟩ | ⟨g, g'⟩
    · rw [up_pos g.le, up_pos g'.le]; rfl
    · rw [up_neg g, up_neg g']; rfl

/-- The weight of a triangle without a contact at a corner. -/
theorem pass_weight {p q : Vec3} {x : TriI × (Vec3 × Vec3 × Vec3)} (hp : ¬ InTri x.2 p) (hq : ¬ InTri x.2 q)
    (hnz : ¬ (vol4 p q x.2.1 x.2.2.1 = 0 ∧ vol4 p q x.2.2.1 x.2.2.2 = 0 ∧ vol4 p q x.2.2.2 x.2.1 = 0))
    (hv : ∀ i, contact p q x ≠ some (.vertex i)) :
    Sound p q x.2 ∧ pass p q x.2 = weight2 p q x := by
  classical
  obtain ⟨i, v1, v2, v3⟩ := x
  simp only at hp hq hnz ⊢
  have hc : contact p q (i, v1, v2, v3) = contact p q (i, v1, v2, v3) := rfl
  conv_rhs at hc => unfold contact
  simp only [meets_iff hnz, iff_false, iff_true] at hc
  by_cases hpat : (0 ≤ vol4 p q v1 v2 ∧ 0 ≤ vol4 p q v2 v3 ∧ 0 ≤ vol4 p q v3 v1) ∨
       (vol4 p q v1 v2 ≤ 0 ∧ vol4 p q v2 v3 ≤ 0 ∧ vol4 p q v3 v1 ≤ 0)
  · obtain ⟨u1, u2⟩ := up_heading hp hq hnz hpat
    by_cases hfg : side (v1, v2, v3) p * side (v1, v2, v3) q ≤ 0
    · have hu := u1 hfg
      have h2 : TwoNZ (vol4 p q v1 v2) (vol4 p q v2 v3) (vol4 p q v3 v1) := by
        by_contra hn
        rcases not_twoNZ hn hnz with ⟨z1, z2, z3⟩ | ⟨z1, z2, z3⟩ | ⟨z1, z2, z3⟩ <;>
          · simp only [hfg, z1, z2, z3] at hc
            simp at hc
            rw [if_pos (le_total _ _)] at hc
            exact hv _ hc
      refine ⟨⟨hnz, .inl h2⟩, ?_⟩
      unfold pass
      rw [hu]
      simp only [hfg, hpat, true_and] at hc
      unfold weight2
      have hs : ∀ v : ℝ, v ≠ 0 → (0 ≤ v → sg v = 1) ∧ (v ≤ 0 → sg v = -1) := fun v hv =>
        ⟨fun h => sg_pos (lt_of_le_of_ne h (Ne.symm hv)), fun h => sg_neg (lt_of_le_of_ne h hv)⟩
      have ht := touch_cases h2
      by_cases z1 : vol4 p q v1 v2 = 0
      · have z2 : vol4 p q v2 v3 ≠ 0 := fun h => h2.not12 ⟨z1, h⟩
        have z3 : vol4 p q v3 v1 ≠ 0 := fun h => h2.not31 ⟨h, z1⟩
        simp only [z1, z2, z3, not_true_eq_false, not_false_eq_true, and_true, and_false, if_true, if_false] at hc
        rw [hc]
        have : touch (vol4 p q v1 v2) (vol4 p q v2 v3) (vol4 p q v3 v1) = 1 := by
          rcases ht with ⟨a, b, c, -, e⟩ | ⟨a, b, c, -, e⟩ | ⟨-, e, e'⟩
          · rw [e, (hs _ z2).1 b, (hs _ z3).1 c, z1, sg_zero]; rfl
          · rw [e, (hs _ z2).2 b, (hs _ z3).2 c, z1, sg_zero]; rfl
          · exact absurd hpat (not_or.2 ⟨e, e'⟩)
        rw [this, mul_one]
      · by_cases z2 : vol4 p q v2 v3 = 0
        · have z3 : vol4 p q v3 v1 ≠ 0 := fun h => h2.rot.not12 ⟨z2, h⟩
          simp only [z1, z2, z3, not_true_eq_false, not_false_eq_true, and_true, and_false, if_true, if_false] at hc
          rw [hc]
          have : touch (vol4 p q v1 v2) (vol4 p q v2 v3) (vol4 p q v3 v1) = 1 := by
            rcases ht with ⟨a, b, c, -, e⟩ | ⟨a, b, c, -, e⟩ | ⟨-, e, e'⟩
            · rw [e, (hs _ z1).1 a, (hs _ z3).1 c, z2, sg_zero]; rfl
            · rw [e, (hs _ z1).2 a, (hs _ z3).2 c, z2, sg_zero]; rfl
            · exact absurd hpat (not_or.2 ⟨e, e'⟩)
          rw [this, mul_one]
        · by_cases z3 : vol4 p q v3 v1 = 0
          · simp only [z1, z2, z3, not_true_eq_false, not_false_eq_true, and_true, and_false, if_true, if_false] at hc
            rw [hc]
            have : touch (vol4 p q v1 v2) (vol4 p q v2 v3) (vol4 p q v3 v1) = 1 := by
              rcases ht with ⟨a, b, c, -, e⟩ | ⟨a, b, c, -, e⟩ | ⟨-, e, e'⟩
              · rw [e, (hs _ z1).1 a, (hs _ z2).1 b, z3, sg_zero]; rfl
              · rw [e, (hs _ z1).2 a, (hs _ z2).2 b, z3, sg_zero]; rfl
              · exact absurd hpat (not_or.2 ⟨e, e'⟩)
            rw [this, mul_one]
          · simp only [z1, z2, z3, not_false_eq_true, and_true, if_true, and_self] at hc
            rw [hc]
            have : touch (vol4 p q v1 v2) (vol4 p q v2 v3) (vol4 p q v3 v1) = 2 := by
              rcases ht with ⟨a, b, c, -, e⟩ | ⟨a, b, c, -, e⟩ | ⟨-, e, e'⟩
              · rw [e, (hs _ z1).1 a, (hs _ z2).1 b, (hs _ z3).1 c]; rfl
              · rw [e, (hs _ z1).2 a, (hs _ z2).2 b, (hs _ z3).2 c]; rfl
              · exact absurd hpat (not_or.2 ⟨e, e'⟩)
            rw [this]; ring
    · have hu := u2 hfg
      simp only [hfg, false_and, if_false] at hc
      refine ⟨⟨hnz, .inr ?_⟩, ?_⟩
      · unfold sep
        rw [if_pos]
        push Not at hfg
        rcases pos_and_pos_or_neg_and_neg_of_mul_pos hfg with ⟨g, g'⟩ | ⟨g, g'⟩
        · simp [g.le, g'.le]
        · simp [g.not_ge, g'.not_ge]
      · unfold pass weight2
        rw [hu, hc]; ring
  · simp only [hpat, false_and, and_false, if_false] at hc
    refine ⟨⟨hnz, .inl ?_⟩, ?_⟩
    · simp only
      by_contra hn
      apply hpat
      rcases not_twoNZ hn hnz with ⟨z1, z2, -⟩ | ⟨z1, -, z2⟩ | ⟨-, z1, z2⟩ <;>
        simp only [z1, z2, le_refl, true_and, and_true] <;> exact le_total _ _
    · unfold pass weight2
      rw [hc]
      have : touch (vol4 p q v1 v2) (vol4 p q v2 v3) (vol4 p q v3 v1) = 0 := by
        unfold touch; rw [if_neg hpat]
      simp only [this, mul_zero]

/-- Probes beyond the tolerance: the weight is twice the signed crossing. -/
theorem pass_crossing {p q : Vec3} {t : Vec3 × Vec3 × Vec3} (hp : ¬ InTri t p) (hq : ¬ InTri t q)
    (h1 : vol4 p q t.1 t.2.1 ≠ 0) (h2 : vol4 p q t.2.1 t.2.2 ≠ 0) (h3 : vol4 p q t.2.2 t.1 ≠ 0) :
    Sound p q t ∧ pass p q t = 2 * crossing p q t := by
  classical
  obtain ⟨v1, v2, v3⟩ := t
  dsimp only at h1 h2 h3
  have hnz : ¬ (vol4 p q v1 v2 = 0 ∧ vol4 p q v2 v3 = 0 ∧ vol4 p q v3 v1 = 0) := fun h => h1 h.1
  have h2' : TwoNZ (vol4 p q v1 v2) (vol4 p q v2 v3) (vol4 p q v3 v1) := .inl ⟨h1, h2⟩
  refine ⟨⟨hnz, .inl h2'⟩, ?_⟩
  unfold pass crossing
  dsimp only
  by_cases hpat : (0 ≤ vol4 p q v1 v2 ∧ 0 ≤ vol4 p q v2 v3 ∧ 0 ≤ vol4 p q v3 v1) ∨
       (vol4 p q v1 v2 ≤ 0 ∧ vol4 p q v2 v3 ≤ 0 ∧ vol4 p q v3 v1 ≤ 0)
  · obtain ⟨u1, u2⟩ := up_heading hp hq hnz hpat
    have hE : side (v1, v2, v3) p ≠ side (v1, v2, v3) q := by
      have hsum := side_sum p q v1 v2 v3
      intro h
      apply hnz
      rcases hpat with ⟨a, b, c⟩ | ⟨a, b, c⟩
      · refine ⟨?_, ?_, ?_⟩ <;> linarith
      · refine ⟨?_, ?_, ?_⟩ <;> linarith
    have ht : touch (vol4 p q v1 v2) (vol4 p q v2 v3) (vol4 p q v3 v1) = 2 := by
      have hs : ∀ v : ℝ, v ≠ 0 → (0 ≤ v → sg v = 1) ∧ (v ≤ 0 → sg v = -1) := fun v hv =>
        ⟨fun h => sg_pos (lt_of_le_of_ne h (Ne.symm hv)), fun h => sg_neg (lt_of_le_of_ne h hv)⟩
      rcases touch_cases h2' with ⟨a, b, c, -, e⟩ | ⟨a, b, c, -, e⟩ | ⟨-, e, e'⟩
      · rw [e, (hs _ h1).1 a, (hs _ h2).1 b, (hs _ h3).1 c]; rfl
      · rw [e, (hs _ h1).2 a, (hs _ h2).2 b, (hs _ h3).2 c]; rfl
      · exact absurd hpat (not_or.2 ⟨e, e'⟩)
    rw [ht]
    by_cases hfg : side (v1, v2, v3) p * side (v1, v2, v3) q ≤ 0
    · rw [if_pos ((seg_pattern hE).2 ⟨(tri_pattern hE).1 hpat, hfg⟩), u1 hfg]
      unfold heading
      ring
    · rw [if_neg (fun h => hfg ((seg_pattern hE).1 h).2), u2 hfg]; ring
  · have : touch (vol4 p q v1 v2) (vol4 p q v2 v3) (vol4 p q v3 v1) = 0 := by
      unfold touch; rw [if_neg hpat]
    rw [this, if_neg]
    · ring
    · rintro ⟨s, -, -, a, b, c, ha, hb, hc, hs, hx⟩
      obtain ⟨e1, e2, e3, -⟩ := line_hit hs hx
      apply hpat
      dsimp only at e1 e2 e3
      rw [e1, e2, e3]
      generalize side (v1, v2, v3) q - side (v1, v2, v3) p = E
      rcases le_total 0 E with h | h
      · exact .inl ⟨mul_nonneg hc h, mul_nonneg ha h, mul_nonneg hb h⟩
      · exact .inr ⟨mul_nonpos_of_nonneg_of_nonpos hc h, mul_nonpos_of_nonneg_of_nonpos ha h,
          mul_nonpos_of_nonneg_of_nonpos hb h⟩

/-- The point with the given index. (Device of the proofs.) -/
def nth (ps : List Vec3) (i : ℕ) : Vec3 := ps.getD i ⟨0, 0, 0⟩

theorem nth_eq {ps : List Vec3} {i : ℕ} {v : Vec3} (h : ps[i]? = some v) : nth ps i = v := by
  simp [nth, List.getD, h]

theorem soup_rim {ps : List Vec3} {is : List TriI} {ts : List (Vec3 × Vec3 × Vec3)}
    (hs : soup ps is = some ts) :
    ts.flatMap rim = (edges is).map (fun e => (nth ps e.1, nth ps e.2)) := by
  rw [Mesh.soup_some] at hs
  induction hs with
  | nil => rfl
  | @cons i c is ts hc _ ih =>
    simp only [edges, List.flatMap_cons, List.map_append, List.map_cons, List.map_nil, nth_eq hc.1,
      nth_eq hc.2.1, nth_eq hc.2.2] at ih ⊢
    rw [ih]
    rfl

/-- The directed edges of a watertight mesh occur as often as their reverses. -/
theorem watertight_closed {ps : List Vec3} {is : List TriI} {ts : List (Vec3 × Vec3 × Vec3)}
    (hs : soup ps is = some ts) (hw : Watertight is) : ClosedSoup ts := by
  have hperm : (edges is).Perm ((edges is).map Prod.swap) := by
    refine (List.perm_ext_iff_of_nodup hw.1 (hw.1.map Prod.swap_injective)).2 ?_
    rintro ⟨a, b⟩
    constructor
    · intro h
      exact List.mem_map.2 ⟨(b, a), (hw.2 _ h).1, rfl⟩
    · intro h
      obtain ⟨⟨c, d⟩, hc, e⟩ := List.mem_map.1 h
      have := (hw.2 _ hc).1
      simp only [Prod.swap_prod_mk, Prod.mk.injEq] at e
      rw [← e.1, ← e.2]
      exact this
  unfold ClosedSoup
  rw [soup_rim hs]
  have := hperm.map (fun e : ℕ × ℕ => (nth ps e.1, nth ps e.2))
  rw [List.map_map] at this ⊢
  exact this

theorem zip_nth {ps : List Vec3} {is : List TriI} {ts : List (Vec3 × Vec3 × Vec3)}
    (hs : soup ps is = some ts) {x : TriI × (Vec3 × Vec3 × Vec3)} (hx : x ∈ is.zip ts) :
    x.2 = (nth ps x.1.i1, nth ps x.1.i2, nth ps x.1.i3) ∧ x.1 ∈ is ∧ x.2 ∈ ts := by
  rw [Mesh.soup_some] at hs
  induction hs with
  | nil => simp at hx
  | @cons i c is ts hc _ ih =>
    simp only [List.zip_cons_cons, List.mem_cons] at hx
    rcases hx with rfl | hx
    · refine ⟨?_, by simp, by simp⟩
      simp only [nth_eq hc.1, nth_eq hc.2.1, nth_eq hc.2.2]
    · obtain ⟨h1, h2, h3⟩ := ih hx
      exact ⟨h1, by simp [h2], by simp [h3]⟩

/-- The segment passes the interior of the edge between two points. (Device of the proofs.) -/
def HitsEdge (p q a b : Vec3) : Prop :=
  ∃ s w : ℝ, 0 ≤ s ∧ s ≤ 1 ∧ 0 < w ∧ w < 1 ∧ lerp p q s = lerp a b w

theorem HitsEdge.symm {p q a b : Vec3} (h : HitsEdge p q a b) : HitsEdge p q b a := by
  obtain ⟨s, w, h0, h1, h2, h3, e⟩ := h
  refine ⟨s, 1 - w, h0, h1, by linarith, by linarith, ?_⟩
  rw [e]; ext <;> simp only [lerp] <;> ring

theorem contact_edge {p q : Vec3} {i : TriI} {v1 v2 v3 : Vec3}
    (hnz : ¬ (vol4 p q v1 v2 = 0 ∧ vol4 p q v2 v3 = 0 ∧ vol4 p q v3 v1 = 0)) :
    (HitsEdge p q v1 v2 → contact p q (i, v1, v2, v3) = some (.edge s(i.i1, i.i2))) ∧
    (HitsEdge p q v2 v3 → contact p q (i, v1, v2, v3) = some (.edge s(i.i2, i.i3))) ∧
    (HitsEdge p q v3 v1 → contact p q (i, v1, v2, v3) = some (.edge s(i.i3, i.i1))) := by
  classical
  have hc : contact p q (i, v1, v2, v3) = contact p q (i, v1, v2, v3) := rfl
  conv_rhs at hc => unfold contact
  simp only [meets_iff hnz, iff_false, iff_true] at hc
  refine ⟨?_, ?_, ?_⟩
  · rintro ⟨s, w, h0, h1, h2, h3, e⟩
    have hm : Meets p q (v1, v2, v3) False False True := by
      refine ⟨s, 1 - w, w, 0, h0, h1, by linarith, by linarith, le_rfl, by ring, ?_, ?_, ?_, ?_⟩
      · simp; linarith
      · simp; linarith
      · simp
      · rw [e]; ext <;> simp only [lerp] <;> ring
    obtain ⟨m1, m2, m3, m4, m5⟩ := (meets_iff hnz).1 hm
    simp only [iff_false, iff_true] at m3 m4 m5
    simp only [m1, m2, true_and] at hc
    simp only [m3, m4, m5, not_true_eq_false, not_false_eq_true, and_true, and_false, if_true,
      if_false] at hc
    exact hc
  · rintro ⟨s, w, h0, h1, h2, h3, e⟩
    have hm : Meets p q (v1, v2, v3) True False False := by
      refine ⟨s, 0, 1 - w, w, h0, h1, le_rfl, by linarith, by linarith, by ring, ?_, ?_, ?_, ?_⟩
      · simp
      · simp; linarith
      · simp; linarith
      · rw [e]; ext <;> simp only [lerp] <;> ring
    obtain ⟨m1, m2, m3, m4, m5⟩ := (meets_iff hnz).1 hm
    simp only [iff_false, iff_true] at m3 m4 m5
    simp only [m1, m2, true_and] at hc
    simp only [m3, m4, m5, not_true_eq_false, not_false_eq_true, and_true, and_false, if_true,
      if_false] at hc
    exact hc
  · rintro ⟨s, w, h0, h1, h2, h3, e⟩
    have hm : Meets p q (v1, v2, v3) False True False := by
      refine ⟨s, w, 0, 1 - w, h0, h1, by linarith, le_rfl, by linarith, by ring, ?_, ?_, ?_, ?_⟩
      · simp; linarith
      · simp
      · simp; linarith
      · rw [e]; ext <;> simp only [lerp] <;> ring
    obtain ⟨m1, m2, m3, m4, m5⟩ := (meets_iff hnz).1 hm
    simp only [iff_false, iff_true] at m3 m4 m5
    simp only [m1, m2, true_and] at hc
    simp only [m3, m4, m5, not_true_eq_false, not_false_eq_true, and_true, and_false, if_true,
      if_false] at hc
    exact hc

theorem edge_contact {p q : Vec3} {i : TriI} {v1 v2 v3 : Vec3} {e : Sym2 ℕ}
    (h : contact p q (i, v1, v2, v3) = some (.edge e)) :
    (e = s(i.i1, i.i2) ∧ HitsEdge p q v1 v2) ∨ (e = s(i.i2, i.i3) ∧ HitsEdge p q v2 v3) ∨
    (e = s(i.i3, i.i1) ∧ HitsEdge p q v3 v1) := by
  unfold contact at h
  split_ifs at h with g1 g2 g3 g4 <;>
    simp only [Option.some.injEq, Contact.edge.injEq, reduceCtorEq] at h
  · right; left
    obtain ⟨s, a, b, c, h0, h1, ha, hb, hc, hs, ea, eb, ec, ex⟩ := g2
    simp only [iff_true, iff_false] at ea eb ec
    refine ⟨h.symm, s, c, h0, h1, lt_of_le_of_ne hc (Ne.symm ec), ?_, ?_⟩
    · have := lt_of_le_of_ne hb (Ne.symm eb); linarith
    · have : b = 1 - c := by linarith
      rw [ex, ea, this]; ext <;> simp only [lerp] <;> ring
  · right; right
    obtain ⟨s, a, b, c, h0, h1, ha, hb, hc, hs, ea, eb, ec, ex⟩ := g3
    simp only [iff_true, iff_false] at ea eb ec
    refine ⟨h.symm, s, a, h0, h1, lt_of_le_of_ne ha (Ne.symm ea), ?_, ?_⟩
    · have := lt_of_le_of_ne hc (Ne.symm ec); linarith
    · have : c = 1 - a := by linarith
      rw [ex, eb, this]; ext <;> simp only [lerp] <;> ring
  · left
    obtain ⟨s, a, b, c, h0, h1, ha, hb, hc, hs, ea, eb, ec, ex⟩ := g4
    simp only [iff_true, iff_false] at ea eb ec
    refine ⟨h.symm, s, b, h0, h1, lt_of_le_of_ne hb (Ne.symm eb), ?_, ?_⟩
    · have := lt_of_le_of_ne ha (Ne.symm ea); linarith
    · have : a = 1 - b := by linarith
      rw [ex, ec, this]; ext <;> simp only [lerp] <;> ring

theorem length_filter_sum {α : Type} (L : List α) (P : α → Bool) (f : α → ℕ)
    (h : ∀ x ∈ L, (if P x then 1 else 0) = f x) : (L.filter P).length = (L.map f).sum := by
  induction L with
  | nil => rfl
  | cons x L ih =>
    have h1 := h x (by simp)
    have h2 := ih (fun y hy => h y (by simp [hy]))
    rw [List.map_cons, List.sum_cons, ← h2, ← h1, List.filter_cons]
    by_cases hp : P x <;> simp [hp, Nat.add_comm]

theorem count_edges (is : List TriI) (e : ℕ × ℕ) :
    (edges is).count e = (is.map fun t => [(t.i1, t.i2), (t.i2, t.i3), (t.i3, t.i1)].count e).sum := by
  induction is with
  | nil => rfl
  | cons t is ih =>
    simp only [edges, List.flatMap_cons, List.count_append, List.map_cons, List.sum_cons] at ih ⊢
    rw [ih]

theorem tri_count {x y z a b : ℕ} (h1 : x ≠ y) (h2 : y ≠ z) (h3 : z ≠ x) (h : a ≠ b) :
    (if s(x, y) = s(a, b) ∨ s(y, z) = s(a, b) ∨ s(z, x) = s(a, b) then 1 else 0) =
      [(x, y), (y, z), (z, x)].count (a, b) + [(x, y), (y, z), (z, x)].count (b, a) := by
  simp only [Sym2.eq_iff, List.count_cons, List.count_nil, beq_iff_eq, Prod.mk.injEq]
  by_cases xa : x = a
  · have : y ≠ a := by omega
    have : z ≠ a := by omega
    have : x ≠ b := by omega
    by_cases yb : y = b
    · have : z ≠ b := by omega
      simp [*]
    · by_cases zb : z = b <;> simp [*]
  · by_cases ya : y = a
    · have : z ≠ a := by omega
      have : y ≠ b := by omega
      by_cases xb : x = b
      · have : z ≠ b := by omega
        simp [*]
      · by_cases zb : z = b <;> simp [*]
    · by_cases za : z = a
      · have : z ≠ b := by omega
        by_cases xb : x = b
        · have : y ≠ b := by omega
          simp [*]
        · by_cases yb : y = b <;> simp [*]
      · simp [*]

/-- In a watertight mesh every edge met belongs to two triangles. -/
theorem headings_two {p q : Vec3} {ps : List Vec3} {is : List TriI} {ts : List (Vec3 × Vec3 × Vec3)}
    (hs : soup ps is = some ts) (hw : Watertight is)
    (hnz : ∀ t ∈ ts, ¬ (vol4 p q t.1 t.2.1 = 0 ∧ vol4 p q t.2.1 t.2.2 = 0 ∧ vol4 p q t.2.2 t.1 = 0))
    {x0 : TriI × (Vec3 × Vec3 × Vec3)} (hx0 : x0 ∈ is.zip ts) {e : Sym2 ℕ}
    (he : contact p q x0 = some (.edge e)) : (headings p q (is.zip ts) (.edge e)).length = 2 := by
  classical
  have hlen : ts.length = is.length := ((Mesh.soup_some.1 hs).length_eq).symm
  -- the edge as a directed edge
  obtain ⟨a, b, hab, hhit, hmem⟩ : ∃ a b, e = s(a, b) ∧ HitsEdge p q (nth ps a) (nth ps b) ∧
      (a, b) ∈ edges is := by
    obtain ⟨i, v1, v2, v3⟩ := x0
    obtain ⟨h1, h2, -⟩ := zip_nth hs hx0
    simp only [Prod.mk.injEq] at h1 h2
    obtain ⟨rfl, rfl, rfl⟩ := h1
    have hm : ∀ d ∈ [(i.i1, i.i2), (i.i2, i.i3), (i.i3, i.i1)], d ∈ edges is := fun d hd =>
      List.mem_flatMap.2 ⟨i, h2, hd⟩
    rcases edge_contact he with ⟨h, h'⟩ | ⟨h, h'⟩ | ⟨h, h'⟩
    · exact ⟨_, _, h, h', hm _ (by simp)⟩
    · exact ⟨_, _, h, h', hm _ (by simp)⟩
    · exact ⟨_, _, h, h', hm _ (by simp)⟩
  have hne : a ≠ b := (hw.2 _ hmem).2
  unfold headings
  rw [List.length_map, length_filter_sum _ _
    (fun x => [(x.1.i1, x.1.i2), (x.1.i2, x.1.i3), (x.1.i3, x.1.i1)].count (a, b) +
      [(x.1.i1, x.1.i2), (x.1.i2, x.1.i3), (x.1.i3, x.1.i1)].count (b, a))]
  · have e1 : ∀ g : TriI → ℕ, ((is.zip ts).map fun x => g x.1).sum = (is.map g).sum := by
      intro g
      have : (is.zip ts).map (fun x => g x.1) = ((is.zip ts).map Prod.fst).map g := by
        rw [List.map_map]; rfl
      rw [this, List.map_fst_zip (by omega)]
    rw [e1 (fun t => [(t.i1, t.i2), (t.i2, t.i3), (t.i3, t.i1)].count (a, b) +
      [(t.i1, t.i2), (t.i2, t.i3), (t.i3, t.i1)].count (b, a)), List.sum_map_add, ← count_edges, ← count_edges,
      List.count_eq_one_of_mem hw.1 hmem, List.count_eq_one_of_mem hw.1 (hw.2 _ hmem).1]
  · intro x hx
    obtain ⟨i, v1, v2, v3⟩ := x
    obtain ⟨h1, h2, h3⟩ := zip_nth hs hx
    simp only [Prod.mk.injEq] at h1 h2 h3
    obtain ⟨rfl, rfl, rfl⟩ := h1
    have hz := hnz _ h3
    dsimp only at hz
    have d12 : i.i1 ≠ i.i2 := (hw.2 (i.i1, i.i2) (List.mem_flatMap.2 ⟨i, h2, by simp⟩)).2
    have d23 : i.i2 ≠ i.i3 := (hw.2 (i.i2, i.i3) (List.mem_flatMap.2 ⟨i, h2, by simp⟩)).2
    have d31 : i.i3 ≠ i.i1 := (hw.2 (i.i3, i.i1) (List.mem_flatMap.2 ⟨i, h2, by simp⟩)).2
    obtain ⟨c1, c2, c3⟩ := contact_edge (i := i) hz
    have hiff : contact p q (i, nth ps i.i1, nth ps i.i2, nth ps i.i3) = some (.edge e) ↔
        (s(i.i1, i.i2) = s(a, b) ∨ s(i.i2, i.i3) = s(a, b) ∨ s(i.i3, i.i1) = s(a, b)) := by
      constructor
      · intro h
        rcases edge_contact h with ⟨h, -⟩ | ⟨h, -⟩ | ⟨h, -⟩
        · left; rw [← h, hab]
        · right; left; rw [← h, hab]
        · right; right; rw [← h, hab]
      · have hh : ∀ u v, s(u, v) = s(a, b) → HitsEdge p q (nth ps u) (nth ps v) := by
          intro u v huv
          rcases Sym2.eq_iff.1 huv with ⟨rfl, rfl⟩ | ⟨rfl, rfl⟩
          · exact hhit
          · exact hhit.symm
        rintro (h | h | h)
        · rw [c1 (hh _ _ h), h, hab]
        · rw [c2 (hh _ _ h), h, hab]
        · rw [c3 (hh _ _ h), h, hab]
    simp only [hiff, decide_eq_true_eq]
    exact tri_count d12 d23 d31 hne

end Geo
