import Verif.Lemmas.RoundedOctreeRayNear
import Verif.Props.RoundedBox

/-!
# Helper lemma for rays through octrees with one cell in floating point arithmetic
-/

namespace Geo

open Spec

namespace OctreeRay

/-- A hit in a tree with one cell is near the ray. -/
theorem octRay_one {k : ℕ} {size : ℝ} {t : Octree} (h : Octree.Good k size t) (hs : toDouble size = size) {o d e : Vec3} (he : UnitAlong d e)
    (hob : 1.1e-9 ≤ |e.x| ∧ 1.1e-9 ≤ |e.y| ∧ 1.1e-9 ≤ |e.z|) {B : ℝ}
    (hB : |o.x| ≤ B ∧ |o.y| ≤ B ∧ |o.z| ≤ B) (hT : B + 2 * size ≤ 2 ^ 15 * t.resolution) (hc : t.resolution = size) {s0 s1 d0 d' : ℝ} (hs0 : 0 ≤ s0)
    (hs1 : s0 < s1) (hne : Rounded.octCubes toDouble t ≠ [])
    (hit : Rounded.octRay toDouble toFloat t (Rounded.rayNew toDouble o d) s0 s1 d0 = .ok (true, d')) :
    ∃ b ∈ Rounded.octCubes toDouble t, ∃ s, s0 < s ∧ s < s1 ∧ InWide (size / 32) b (along o e s) := by
  have hp := h.size_pos
  have hk : k = 0 := by
    have h1 : (2 : ℝ) ^ k = 1 := by
      have := h.res
      rw [hc] at this
      exact (mul_eq_left₀ hp.ne').1 this
    by_contra hk
    have := one_lt_pow₀ (by norm_num : (1 : ℝ) < 2) hk
    linarith
  subst hk
  have hroot : ∃ b, b ∈ Rounded.octCubes toDouble t ∧ b = Box.new ⟨-size / 2, -size / 2, -size / 2⟩ ⟨size / 2, size / 2, size / 2⟩ := by
    have hw := h.wf
    have e1 : toDouble (-size / 2 + size) = size / 2 := by
      rw [show -size / 2 + size = size / 2 by ring]
      exact toDouble_half hs
    unfold Rounded.octCubes at hne ⊢
    rw [h.off] at hne ⊢
    cases hr : t.root with
    | null => exact absurd hr h.root
    | node s' occ ch =>
      rw [hr] at hw hne
      obtain ⟨rfl, hch⟩ := hw
      cases occ with
      | true => exact ⟨_, by simp only [Rounded.nodeCubes, if_true, Rounded.add, e1, List.mem_singleton], rfl⟩
      | false =>
        refine absurd ?_ hne
        simp only [Rounded.nodeCubes, Bool.false_eq_true, if_false, hch]
        simp
  obtain ⟨b, hb, hbe⟩ := hroot
  have hbox : (Rounded.boxRay toDouble toFloat (Box.new t.offset t.max) (Rounded.rayNew toDouble o d) s0 s1 0).1 = true := by
    unfold Rounded.octRay at hit
    simp only at hit
    split_ifs at hit with hh
    · simp at hit
    · simpa using hh
  rw [h.off, h.max] at hbox
  obtain ⟨s, m, a1, a2, a3, a4⟩ := (C122_ray C93_roundings.1 toDouble_mono C93_roundings.2 toFloat_mono (by norm_num) (by norm_num)
    (lo := ⟨-size / 2, -size / 2, -size / 2⟩) (hi := ⟨size / 2, size / 2, size / 2⟩) (o := o) ⟨by simp only; linarith, by simp only; linarith, by simp only; linarith⟩ he
    ⟨le_trans (by norm_num) hob.1, le_trans (by norm_num) hob.2.1, le_trans (by norm_num) hob.2.2⟩ s0 s1 0 hs1).1 hbox
  have hsp : 0 < s := by linarith
  rw [abs_of_pos hsp] at a3
  obtain ⟨i1, i2, i3, i4, i5, i6⟩ := a4
  simp only [along] at i1 i2 i3 i4 i5 i6
  have far : ∀ c f : ℝ, 0.57 ≤ |f| → |c| ≤ B → -size / 2 - m ≤ c + s * f → c + s * f ≤ size / 2 + m → s ≤ 2 ^ 16 * size := by
    intro c f hf hcB l u
    have h1 : |s * f| ≤ B + size / 2 + m := by
      obtain ⟨c1, c2⟩ := abs_le.1 hcB
      exact abs_le.2 ⟨by linarith, by linarith⟩
    rw [abs_mul, abs_of_pos hsp] at h1
    have h2 : s * 0.57 ≤ s * |f| := mul_le_mul_of_nonneg_left hf hsp.le
    rw [hc] at hT
    norm_num at h2 a3 hT ⊢
    linarith
  have hs16 : s ≤ 2 ^ 16 * size := by
    rcases long_unit he.1 with hf | hf | hf
    · exact far _ _ hf hB.1 i1 i2
    · exact far _ _ hf hB.2.1 i3 i4
    · exact far _ _ hf hB.2.2 i5 i6
  have hm : m ≤ size / 32 := by
    rw [a3]
    norm_num at hs16 ⊢
    linarith
  refine ⟨b, hb, s, a1, a2, ?_⟩
  rw [hbe]
  refine ⟨?_, ?_, ?_, ?_, ?_, ?_⟩ <;> simp only [Box.new_lo, Box.new_hi, along] <;> linarith

end OctreeRay

end Geo
