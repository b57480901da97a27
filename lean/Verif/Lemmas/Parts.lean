import Verif.Model.Parts
import Verif.Props.HeightMap
import Verif.Lemmas.Composite
import Verif.Lemmas.HeightMapContains

/-!
# Height maps as parts of composites: the candidate of a ray
-/

namespace Geo

open Spec

/-- The candidate of a box, geometrically. -/
theorem box_candidate_spec {lo hi o d u : Vec3} {t0 : ℝ} (h : Proper lo hi) (hu : UnitAlong d u) (hx : 1e-9 ≤ |u.x|)
    (hy : 1e-9 ≤ |u.y|) (hz : 1e-9 ≤ |u.z|) {e : Option ℝ} (he : Candidate (Box.new lo hi).toObj (Ray.new o d) t0 e) :
    (∀ x, e = some x → IsLeast {t | InBox lo hi (along o u t)} x) ∧
    (∀ x, e = some x → ∀ t1, t0 < t1 → x < t1 → ∃ t, t0 < t ∧ t < t1 ∧ InBox lo hi (along o u t)) ∧
    ((∃ t, t0 < t ∧ InBox lo hi (along o u t)) → ∃ x, e = some x) := by
  have key : ∀ t1 d0, ((((Box.new lo hi).intersectRay (Ray.new o d) t0 t1 d0).1 = true ↔ ∃ x, e = some x ∧ x < t1) ∧
      (((Box.new lo hi).intersectRay (Ray.new o d) t0 t1 d0).1 = true →
        e = some ((Box.new lo hi).intersectRay (Ray.new o d) t0 t1 d0).2)) := by
    intro t1 d0
    obtain ⟨res, h1, h2, h3⟩ := he t1 d0
    simp only [Box.toObj, Except.ok.injEq] at h1
    rw [h1]
    exact ⟨h2, h3⟩
  refine ⟨?_, ?_, ?_⟩
  · intro x hx'
    obtain ⟨a, b⟩ := key (max x t0 + 1) 0
    have hit := a.2 ⟨x, hx', by linarith [le_max_left x t0]⟩
    have := (C26_ray lo hi o d u t0 (max x t0 + 1) 0 h hu hx hy hz (by linarith [le_max_right x t0])).2 hit
    have e2 := b hit
    rw [hx'] at e2
    rw [Option.some.inj e2]
    exact this
  · intro x hx' t1 ht hlt
    exact (C26_ray lo hi o d u t0 t1 0 h hu hx hy hz ht).1.1 ((key t1 0).1.2 ⟨x, hx', hlt⟩)
  · rintro ⟨t, ht, hin⟩
    have hit := (C26_ray lo hi o d u t0 (t + 1) 0 h hu hx hy hz (by linarith)).1.2 ⟨t, ht, by linarith, hin⟩
    exact ⟨_, (key (t + 1) 0).2 hit⟩

/-- Two columns that both hold the ray for a while are one. -/
theorem column_unique {grid : List (List ℝ)} {res : ℝ} (hres : 0 ≤ res) {o u : Vec3} (hx : 0 < u.x) (hy : 0 < u.y) {c c' : ℕ × ℕ}
    {s t : ℝ} (hst : s < t) (h1 : InBox (columnLo res c) (columnHi res grid c) (along o u s))
    (h2 : InBox (columnLo res c) (columnHi res grid c) (along o u t))
    (h1' : InBox (columnLo res c') (columnHi res grid c') (along o u s))
    (h2' : InBox (columnLo res c') (columnHi res grid c') (along o u t)) : c = c' := by
  have sep : ∀ (i j : ℕ) (a v : ℝ), 0 < v → (i:ℝ) * res ≤ a + s * v → a + t * v ≤ ((j:ℝ) + 1) * res → i ≤ j := by
    intro i j a v hv g1 g2
    by_contra hc
    have hc : (j:ℝ) + 1 ≤ i := by exact_mod_cast not_le.1 hc
    have := mul_le_mul_of_nonneg_right hc hres
    have := mul_lt_mul_of_pos_right hst hv
    linarith
  simp only [InBox, along, columnLo, columnHi] at h1 h2 h1' h2'
  refine Prod.ext (le_antisymm ?_ ?_) (le_antisymm ?_ ?_)
  · exact sep _ _ _ _ hx h1.1 h2'.2.1
  · exact sep _ _ _ _ hx h1'.1 h2.2.1
  · exact sep _ _ _ _ hy h1.2.2.1 h2'.2.2.2.1
  · exact sep _ _ _ _ hy h1'.2.2.1 h2.2.2.2.1

theorem inBox_between {lo hi o u : Vec3} {s t x : ℝ} (hs : InBox lo hi (along o u s)) (ht : InBox lo hi (along o u t))
    (h1 : s ≤ x) (h2 : x ≤ t) : InBox lo hi (along o u x) := by
  have key : ∀ (a v l h : ℝ), l ≤ a + s * v → a + s * v ≤ h → l ≤ a + t * v → a + t * v ≤ h → l ≤ a + x * v ∧ a + x * v ≤ h := by
    intro a v l h a1 a2 a3 a4
    rcases le_total 0 v with hv | hv
    · have := mul_le_mul_of_nonneg_right h1 hv
      have := mul_le_mul_of_nonneg_right h2 hv
      constructor <;> linarith
    · have := mul_le_mul_of_nonpos_right h1 hv
      have := mul_le_mul_of_nonpos_right h2 hv
      constructor <;> linarith
  simp only [InBox, along] at *
  have a := key o.x u.x _ _ hs.1 hs.2.1 ht.1 ht.2.1
  have b := key o.y u.y _ _ hs.2.2.1 hs.2.2.2.1 ht.2.2.1 ht.2.2.2.1
  have c := key o.z u.z _ _ hs.2.2.2.2.1 hs.2.2.2.2.2 ht.2.2.2.2.1 ht.2.2.2.2.2
  exact ⟨a.1, a.2, b.1, b.2, c.1, c.2⟩

/-- The mesh of a height map is a mesh a client can build. -/
theorem heightMap_good (grid : List (List ℝ)) (m n : ℕ) (res : ℝ) (hg : Rectangular grid m n) (hm : 0 < m)
    (hr : GridInRange grid m n res) (h : HeightMap) (hh : HeightMap.fromGrid grid res = .ok h) : GoodMesh h.toObj.mesh := by
  obtain ⟨h', -, -, -, e, -, -, -, -, -, hv, -⟩ := C45_mesh grid m n res hg hm hr
  rw [hh] at e
  have := Except.ok.inj e
  subst this
  exact ⟨HeightMap.fromGrid_reachable hh, hv⟩

end Geo
