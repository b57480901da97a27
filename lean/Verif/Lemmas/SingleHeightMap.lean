import Verif.Model.SingleHeightMap
import Verif.Lemmas.HeightMapRay
import Verif.Lemmas.Single

/-!
# Height maps in single precision: the ray query in terms of the columns
-/

namespace Geo

open Spec

/-- Without rounding the query is that of `Model/HeightMap`. -/
theorem HNode.intersectRayF_id (n : HNode) (r : Ray) (t0 t1 : ℝ) : ∀ d, n.intersectRayF id r t0 t1 d = n.intersectRay r t0 t1 d := by
  induction n with
  | null => intro d; rfl
  | node b oc ch ih =>
    intro d
    unfold HNode.intersectRayF HNode.intersectRay
    simp only [Geo.intersectRayF_id, ih]

/-- A larger box is hit whenever a smaller one is, for every monotone rounding. -/
theorem box_monoF {rnd : ℝ → ℝ} (hr : Monotone rnd) {b b' : Box} (h1 : InBox b.lo b.hi b'.lo) (h2 : InBox b.lo b.hi b'.hi)
    (o d : Vec3) {t0 t1 d0 d1 : ℝ} (h : (b'.intersectRayF rnd (Ray.new o d) t0 t1 d0).1 = true) :
    (b.intersectRayF rnd (Ray.new o d) t0 t1 d1).1 = true := by
  rw [intersectRayF_eq] at h ⊢
  dsimp only at h ⊢
  rw [slabs_flag] at h ⊢
  obtain ⟨x1, x2⟩ := slab_mono (o := o.x) (u := d.normalized.x) h1.1 h2.2.1
  obtain ⟨y1, y2⟩ := slab_mono (o := o.y) (u := d.normalized.y) h1.2.2.1 h2.2.2.2.1
  obtain ⟨z1, z2⟩ := slab_mono (o := o.z) (u := d.normalized.z) h1.2.2.2.2.1 h2.2.2.2.2.2
  have x1 := hr x1
  have x2 := hr x2
  have y1 := hr y1
  have y2 := hr y2
  have z1 := hr z1
  have z2 := hr z2
  obtain ⟨g1, g2, g3, g4, g5, g6, g7, g8, g9, g10, g11, g12⟩ := h
  refine ⟨?_, ?_, ?_, ?_, ?_, ?_, ?_, ?_, ?_, ?_, ?_, ?_⟩ <;> linarith

/-- The flag does not depend on the initial value of the out-parameter, nor does the distance on a hit. -/
theorem box_initF (rnd : ℝ → ℝ) (b : Box) (o d : Vec3) (t0 t1 d0 d1 : ℝ) :
    (b.intersectRayF rnd (Ray.new o d) t0 t1 d0).1 = (b.intersectRayF rnd (Ray.new o d) t0 t1 d1).1 ∧
    ((b.intersectRayF rnd (Ray.new o d) t0 t1 d0).1 = true →
      (b.intersectRayF rnd (Ray.new o d) t0 t1 d0).2 = (b.intersectRayF rnd (Ray.new o d) t0 t1 d1).2) := by
  rw [intersectRayF_eq, intersectRayF_eq]
  dsimp only
  split_ifs <;> simp

namespace HNode

/-- Casting a ray on the tree: flag and distance, in terms of the leaves. -/
theorem castF {rnd : ℝ → ℝ} (hr : Monotone rnd) {n : HNode} (hn : Nested n) (o d : Vec3) (t0 t1 : ℝ) :
    ∃ (hit : Bool) (D : ℝ), (∀ d0, (n.intersectRayF rnd (Ray.new o d) t0 t1 d0).1 = hit ∧
        (hit = true → (n.intersectRayF rnd (Ray.new o d) t0 t1 d0).2 = D)) ∧
      (hit = true ↔ ∃ l ∈ leaves n, (l.intersectRayF rnd (Ray.new o d) t0 t1 0).1 = true) ∧
      (hit = true → ∃ l ∈ leaves n, (l.intersectRayF rnd (Ray.new o d) t0 t1 0).1 = true ∧
        D = (l.intersectRayF rnd (Ray.new o d) t0 t1 0).2) := by
  induction n with
  | null =>
    refine ⟨false, 0, fun d0 => ⟨rfl, by simp⟩, by simp [leaves], by simp⟩
  | node b0 occ ch ih =>
    have hbox := fun d0 => box_initF rnd b0 o d t0 t1 d0 0
    cases hb : (b0.intersectRayF rnd (Ray.new o d) t0 t1 0).1 with
    | false =>
      refine ⟨false, 0, fun d0 => ⟨?_, by simp⟩, ?_, by simp⟩
      · unfold intersectRayF
        simp [(hbox d0).1, hb]
      · simp only [Bool.false_eq_true, false_iff]
        rintro ⟨l, hl, hh⟩
        obtain ⟨q1, q2⟩ := leaves_in hn b0 rfl l hl
        rw [box_monoF hr q1 q2 o d hh] at hb
        simp at hb
    | true =>
      cases occ with
      | true =>
        refine ⟨true, (b0.intersectRayF rnd (Ray.new o d) t0 t1 0).2, fun d0 => ⟨?_, fun _ => ?_⟩, ?_, fun _ => ?_⟩
        · unfold intersectRayF
          simp [(hbox d0).1, hb]
        · unfold intersectRayF
          simp [(hbox d0).1, hb, (hbox d0).2 ((hbox d0).1.trans hb)]
        · simp [leaves, hb]
        · exact ⟨b0, by simp [leaves], hb, rfl⟩
      | false =>
        choose b g h1 h2 h3 using fun i => ih i (hn.2 i).1
        have eq : ∀ d0, (HNode.node b0 false ch).intersectRayF rnd (Ray.new o d) t0 t1 d0 =
            (let first := loopOrigin (fun i => (ch i).boxContains (Ray.new o d).origin)
              (fun i d' => intersectRayF rnd (ch i) (Ray.new o d) t0 t1 d') [0, 1, 2, 3]
              (b0.intersectRayF rnd (Ray.new o d) t0 t1 d0).2 none
            if first.1 then (true, first.2.1) else loopRest first.2.2
              (fun i d' => intersectRayF rnd (ch i) (Ray.new o d) t0 t1 d') [0, 1, 2, 3] first.2.1) := by
          intro d0
          conv_lhs => unfold intersectRayF
          simp [(hbox d0).1, hb]
        have L := fun d' => loops (sel := fun i => (ch i).boxContains (Ray.new o d).origin) h1 d'
        obtain ⟨-, i, hi⟩ := L 0
        classical
        refine ⟨decide (∃ i, b i = true), g i, fun d0 => ⟨?_, fun hh => ?_⟩, ?_, fun hh => ?_⟩
        · rw [eq d0, Bool.eq_iff_iff, decide_eq_true_eq]
          exact (L _).1
        · rw [eq d0]
          exact (hi _ ((L _).1.2 (by simpa using hh))).1
        · simp only [decide_eq_true_eq, h2, mem_leaves]
          constructor
          · rintro ⟨i, l, h, h'⟩; exact ⟨l, ⟨i, h⟩, h'⟩
          · rintro ⟨l, ⟨i, h⟩, h'⟩; exact ⟨i, l, h, h'⟩
        · have := (hi 0 ((L 0).1.2 (by simpa using hh))).2.1
          obtain ⟨l, hl, q⟩ := h3 i this
          exact ⟨l, mem_leaves.2 ⟨i, hl⟩, q⟩

end HNode

end Geo
