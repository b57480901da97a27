import Verif.Lemmas.RoundedOctreeQueries
import Verif.Spec.RoundedOctreeOutside

/-! # Helper lemmas: points outside of octrees in floating point arithmetic -/

namespace Geo
open Spec

/-- Two places on one axis of a cell that the descent cannot tell apart: equal `double`s in the cell, both at or before its start, or both at or behind its
end. (Device of the proofs.) -/
def PlaceRel (size x x' : ℝ) : Prop :=
  (x' = x ∧ 0 ≤ x ∧ x ≤ size ∧ toDouble x = x) ∨ (x ≤ 0 ∧ x' ≤ 0) ∨ (size ≤ x ∧ size ≤ x')

/-- One axis of the descent. -/
theorem place_step {size x x' : ℝ} (hs : toDouble size = size) (hpos : 0 < size) (h : PlaceRel size x x') :
    decide (x' > size / 2) = decide (x > size / 2) ∧
    PlaceRel (size / 2) (x - if decide (x > size / 2) = true then size / 2 else 0)
      (if decide (x > size / 2) = true then toDouble (x' - size / 2) else x') := by
  have hh := toDouble_half hs
  rcases h with ⟨rfl, h1, h2, h3⟩ | ⟨h1, h2⟩ | ⟨h1, h2⟩
  · refine ⟨rfl, ?_⟩
    obtain ⟨a, b⟩ := half_step hs ⟨h1, h2, h3⟩ _ rfl
    rw [a]
    exact .inl ⟨rfl, b⟩
  · have c : ¬ x > size / 2 := by linarith
    have c' : ¬ x' > size / 2 := by linarith
    simp only [c, c', decide_false, Bool.false_eq_true, if_false, sub_zero, true_and]
    exact .inr (.inl ⟨h1, h2⟩)
  · have c : x > size / 2 := by linarith
    have c' : x' > size / 2 := by linarith
    simp only [c, c', decide_true, if_true, true_and]
    refine .inr (.inr ⟨by linarith, ?_⟩)
    have := toDouble_mono (show size / 2 ≤ x' - size / 2 by linarith)
    rwa [hh] at this

theorem nodeAdd_rel {res : ℝ} (h1 : 1e-10 ≤ res) (h2 : res ≤ 2 ^ 19) (hd : toDouble res = res) :
    ∀ (k : ℕ) (size : ℝ) (n : ℕ) (t : OctNode) (p p' : Vec3), res * 2 ^ k = size → toDouble size = size → OctNode.WF k size t →
    PlaceRel size p.x p'.x → PlaceRel size p.y p'.y → PlaceRel size p.z p'.z →
    Rounded.nodeAdd toDouble res n t p' = OctNode.add res n t p := by
  intro k
  induction k with
  | zero =>
    intro size n t p p' hr hs hw _ _ _
    cases n with
    | zero => rfl
    | succ n =>
      cases t with
      | null => rfl
      | node s o ch =>
        obtain ⟨rfl, -⟩ := hw
        have e : s = res := by rw [← hr]; ring
        subst e
        unfold Rounded.nodeAdd OctNode.add
        rw [if_pos (leaf_yes h1 h2 hd), if_pos (by norm_num)]
  | succ k ih =>
    intro size n t p p' hr hs hw px py pz
    cases n with
    | zero => rfl
    | succ n =>
      cases t with
      | null => rfl
      | node s o ch =>
        obtain ⟨rfl, -, hch⟩ := hw
        have hpow : (1 : ℝ) ≤ 2 ^ k := one_le_pow₀ (by norm_num)
        have hres : 0 < res := lt_of_lt_of_le (by norm_num) h1
        have h2r : 2 * res ≤ s := by
          rw [← hr, pow_succ]
          nlinarith
        have hpos : 0 < s := by linarith
        have hhalf : res * 2 ^ k = s / 2 := by rw [← hr, pow_succ]; ring
        unfold Rounded.nodeAdd OctNode.add
        rw [if_neg (leaf_no h1 hd h2r), if_neg (by linarith), toDouble_half hs]
        obtain ⟨a1, b1⟩ := place_step hs hpos px
        obtain ⟨a2, b2⟩ := place_step hs hpos py
        obtain ⟨a3, b3⟩ := place_step hs hpos pz
        dsimp only
        rw [a1, a2, a3]
        have e : p - OctNode.shift s (decide (p.x > s / 2)) (decide (p.y > s / 2)) (decide (p.z > s / 2)) =
            (⟨p.x - (if decide (p.x > s / 2) = true then s / 2 else 0), p.y - (if decide (p.y > s / 2) = true then s / 2 else 0),
            p.z - (if decide (p.z > s / 2) = true then s / 2 else 0)⟩ : Vec3) := by
          ext <;> simp [OctNode.shift]
        rw [e, ih (s / 2) n _ ⟨p.x - (if decide (p.x > s / 2) = true then s / 2 else 0), p.y - (if decide (p.y > s / 2) = true then s / 2 else 0),
            p.z - (if decide (p.z > s / 2) = true then s / 2 else 0)⟩ _ hhalf (toDouble_half hs) ?_ b1 b2 b3]
        cases hc : ch (OctNode.index (decide (p.x > s / 2)) (decide (p.y > s / 2)) (decide (p.z > s / 2))) with
        | null => exact OctNode.WF.new _ _
        | node s' o' ch' =>
          have := hch (OctNode.index (decide (p.x > s / 2)) (decide (p.y > s / 2)) (decide (p.z > s / 2)))
          rw [hc] at this
          exact this

theorem clamp_in {size : ℝ} (hpos : 0 < size) (p : Vec3) :
    InBox ⟨-size / 2, -size / 2, -size / 2⟩ ⟨size / 2, size / 2, size / 2⟩ (clampTo size p) := by
  have h : ∀ x : ℝ, -size / 2 ≤ max (-size / 2) (min x (size / 2)) ∧ max (-size / 2) (min x (size / 2)) ≤ size / 2 := fun x =>
    ⟨le_max_left _ _, max_le (by linarith) (min_le_right _ _)⟩
  exact ⟨(h _).1, (h _).2, (h _).1, (h _).2, (h _).1, (h _).2⟩

namespace Octree

/-- The place of a coordinate, and that of the nearest coordinate of the tree. -/
theorem place_clamp {size : ℝ} (hs : toDouble size = size) (hpos : 0 < size) (x : ℝ) :
    PlaceRel size (toDouble (Max.max (-size / 2) (min x (size / 2)) - -size / 2)) (toDouble (x - -size / 2)) := by
  rcases lt_or_ge x (-size / 2) with h | h
  · right; left
    rw [min_eq_left (by linarith), max_eq_left h.le, sub_self, toDouble_zero]
    have := toDouble_mono (show x - -size / 2 ≤ 0 by linarith)
    rw [toDouble_zero] at this
    exact ⟨le_rfl, this⟩
  · rcases le_or_gt x (size / 2) with h' | h'
    · left
      rw [min_eq_left h', max_eq_right h]
      exact ⟨rfl, snap_inner hs h h'⟩
    · right; right
      rw [min_eq_right h'.le, max_eq_right (by linarith), show size / 2 - -size / 2 = size by ring, hs]
      have := toDouble_mono (show size ≤ x - -size / 2 by linarith)
      rw [hs] at this
      exact ⟨le_rfl, this⟩

/-- Any point is added as the nearest point of the tree is. -/
theorem octAdd_clamp {k : ℕ} {size : ℝ} {t : Octree} (h : Good k size t) (hs : toDouble size = size) (hr : t.resolution ≤ 2 ^ 19) (p : Vec3) :
    Rounded.octAdd toDouble t p = Rounded.octAdd toDouble t (clampTo size p) := by
  have hpos := h.size_pos
  rw [octAdd_snap h hs hr (clamp_in hpos p)]
  unfold Rounded.octAdd Octree.add
  have e : snap3 size (clampTo size p) - t.offset = Rounded.sub toDouble (clampTo size p) t.offset := by
    rw [h.off]
    ext <;> simp [Rounded.sub, snap3, snap]
  rw [e, h.off]
  simp only [nodeAdd_rel h.tol hr (good_res h hs) k size _ t.root
    (Rounded.sub toDouble (clampTo size p) ⟨-size / 2, -size / 2, -size / 2⟩) (Rounded.sub toDouble p ⟨-size / 2, -size / 2, -size / 2⟩)
    h.res hs h.wf (place_clamp hs hpos p.x) (place_clamp hs hpos p.y) (place_clamp hs hpos p.z)]

end Octree

end Geo
