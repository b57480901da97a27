import Verif.Lemmas.RoundedSphereSound
import Verif.Lemmas.ClearCase
import Verif.Spec.RoundedSphere

/-!
# Helper lemmas on the sphere test of meshes in floating point arithmetic: whole meshes
-/

namespace Geo.RoundedSphere
open Spec RoundedVec

variable {u : ℝ} {rnd : ℝ → ℝ}

theorem dist_length' (a b : Vec3) : Spec.dist a b = (b - a).length := by
  rw [Spec.dist, ← length2_sub, length_sub_comm]; rfl

theorem heron_cross (v1 v2 v3 : Vec3) : 2 * heron v1 v2 v3 = ((v2 - v1).cross (v3 - v2)).length := by
  rw [heron_area4]
  have : area4 v1 v2 v3 = ((v2 - v1).cross (v3 - v2)).length2 := by
    simp only [area4, Vec3.cross, Vec3.length2, Vec3.sub_x, Vec3.sub_y, Vec3.sub_z]; ring
  rw [this, show ((v2 - v1).cross (v3 - v2)).length = Real.sqrt ((v2 - v1).cross (v3 - v2)).length2 from rfl]
  ring

/-- A positive answer for a triangle. -/
theorem triangle_sound (h : RelErr u rnd) (hu : u ≤ 1e-11) {p v1 v2 v3 : Vec3} {D K R : ℝ} (hK : 1 ≤ K)
    (hKu : K * u ≤ 1 / 1000) (hst : Stout K (v1, v2, v3)) (hD : 0 ≤ D) (hp : p.length ≤ D) (h1 : distSq v1 p ≤ D ^ 2)
    (h2 : distSq v2 p ≤ D ^ 2) (h3 : distSq v3 p ≤ D ^ 2)
    (hh : Rounded.sphereHitsTriangle rnd p (rnd (R * R)) v1 v2 v3 = true) :
    ∃ x, InTri (v1, v2, v3) x ∧ ∃ e ∈ rim (v1, v2, v3),
      distSq p x ≤ R ^ 2 * (1 + 2e-9) + 1e-17 * distSq e.1 e.2 + 25000 * K ^ 3 * u * D ^ 2 := by
  have hu0 := Rounded.relErr_nonneg h
  have hRR := sq_nonneg R
  have hK3 : 1 ≤ K ^ 3 := one_le_pow₀ hK
  have hb : 1 * (u * D ^ 2) ≤ K ^ 3 * (u * D ^ 2) := mul_le_mul_of_nonneg_right hK3 (by positivity)
  have hb0 : 0 ≤ u * D ^ 2 := by positivity
  have hnn : ∀ e : Vec3 × Vec3, 0 ≤ 1e-17 * distSq e.1 e.2 := by
    intro e; unfold distSq; positivity
  have corner : ∀ {v}, distSq v p ≤ R ^ 2 * (1 + 1e-9) + 10 * u * D ^ 2 → ∀ e : Vec3 × Vec3,
      distSq p v ≤ R ^ 2 * (1 + 2e-9) + 1e-17 * distSq e.1 e.2 + 25000 * K ^ 3 * u * D ^ 2 := by
    intro v hv e
    have := hnn e
    rw [distSq_comm'] at hv
    linarith
  unfold Rounded.sphereHitsTriangle at hh
  simp only at hh
  split_ifs at hh with c1 c2 c3 c4 c5 c6
  · exact ⟨v1, ⟨1, 0, 0, by norm_num, le_rfl, le_rfl, by norm_num, by ext <;> simp⟩, (v1, v2), by simp [rim],
      corner (corner_sound h hu h1 c1) _⟩
  · exact ⟨v2, ⟨0, 1, 0, by norm_num, by norm_num, le_rfl, by norm_num, by ext <;> simp⟩, (v1, v2), by simp [rim],
      corner (corner_sound h hu h2 c2) _⟩
  · exact ⟨v3, ⟨0, 0, 1, by norm_num, by norm_num, by norm_num, by norm_num, by ext <;> simp⟩, (v1, v2), by simp [rim],
      corner (corner_sound h hu h3 c3) _⟩
  · obtain ⟨s, s0, s1, hs⟩ := edge_sound h hu h1 hD c4
    refine ⟨_, ⟨1 - s, s, 0, by linarith, s0, le_rfl, by ring, ?_⟩, (v1, v2), by simp [rim], hs.trans ?_⟩
    · ext <;> simp
    · simp only; linarith
  · obtain ⟨s, s0, s1, hs⟩ := edge_sound h hu h2 hD c5
    refine ⟨_, ⟨0, 1 - s, s, le_rfl, by linarith, s0, by ring, ?_⟩, (v2, v3), by simp [rim], hs.trans ?_⟩
    · ext <;> simp
    · simp only; linarith
  · obtain ⟨s, s0, s1, hs⟩ := edge_sound h hu h3 hD c6
    refine ⟨_, ⟨s, 0, 1 - s, s0, le_rfl, by linarith, by ring, ?_⟩, (v3, v1), by simp [rim], hs.trans ?_⟩
    · ext <;> simp <;> ring
    · simp only; linarith
  · obtain ⟨hA, k12, k23, k31⟩ := hst
    simp only [dist_length'] at hA k12 k23 k31
    rw [heron_cross] at hA k12 k23 k31
    obtain ⟨x, hx, hd⟩ := face_sound h hu (κ := K * u) (le_mul_of_one_le_left hu0 hK) hKu rfl hK rfl rfl hA k12 k23 k31 hp
      (dist_le hD h1) (dist_le hD h2) (dist_le hD h3) hh
    refine ⟨x, hx, (v1, v2), by simp [rim], ?_⟩
    have := hnn (v1, v2)
    linarith

/-- The bounding sphere does not exclude a sphere that clearly contains a point of the mesh. -/
theorem early (h : RelErr u rnd) (hu : u ≤ 1e-11) {ps : List Vec3} {r : ℝ} (hr : IsRadius ps r) (hr0 : 0 ≤ r) {p x : Vec3} {R : ℝ}
    (hR : 0 < R) (hx : x.length2 ≤ r ^ 2) (hh : distSq p x + 40 * u * (p.length + r) ^ 2 < R ^ 2) :
    ¬ rnd (Rounded.length rnd p - R) > Rounded.maxRadius rnd ps := by
  have hu0 := Rounded.relErr_nonneg h
  have Rn : Rnd u r rnd := ⟨hr0, hu0, by linarith, h⟩
  have hm := (abs_le.1 (Rn.sqrt Rn.r0 (Rn.sqMax hr))).1
  change -(2.52 * u * r) ≤ Rounded.maxRadius rnd ps - r at hm
  have hp := (abs_le.1 (Rn.length p)).2
  have hp0 := length_nonneg p
  have hxr := length_le hr0 hx
  have htri := length_le_add p x
  have hδ2 : (p - x).length ^ 2 = distSq p x := by rw [length_sq, length2_sub]
  rw [← hδ2] at hh
  have hδ0 := length_nonneg (p - x)
  obtain ⟨D, hD⟩ : ∃ D, D = p.length + r := ⟨_, rfl⟩
  rw [← hD] at hh
  have hD0 : 0 ≤ D := by rw [hD]; positivity
  generalize (p - x).length = δ at *
  generalize Rounded.maxRadius rnd ps = m at *
  generalize Rounded.length rnd p = l at *
  have hup : u * p.length ≤ u * D := mul_le_mul_of_nonneg_left (by linarith) hu0
  have hur : u * r ≤ u * D := mul_le_mul_of_nonneg_left (by linarith) hu0
  have huD : u * D ≤ 1e-11 * D := mul_le_mul_of_nonneg_right hu hD0
  have huD0 : 0 ≤ u * D := by positivity
  have hur' : u * r ≤ 1e-11 * r := mul_le_mul_of_nonneg_right hu hr0
  have huD2 : 0 ≤ u * D ^ 2 := by positivity
  rw [gt_iff_lt, not_lt]
  have hm0 : 0 ≤ m := by linarith
  have neg : l - R ≤ 0 → rnd (l - R) ≤ m := by
    intro hy
    have := (abs_le.1 (h (l - R))).2
    rw [abs_of_nonpos hy] at this
    have : u * -(l - R) ≤ 1 * -(l - R) := mul_le_mul_of_nonneg_right (by linarith) (by linarith)
    linarith
  rcases le_or_gt (l - R) 0 with hy | hy
  · exact neg hy
  have hDp : 0 < D := by
    refine lt_of_le_of_ne hD0 fun hz => ?_
    linarith
  have hR3 : R ≤ 1.1 * D := by linarith
  have hδR : δ < R := by
    refine lt_of_pow_lt_pow_left₀ 2 hR.le ?_
    linarith
  have hgap : 18 * u * D ≤ R - δ := by
    by_contra hc
    push Not at hc
    have e : R ^ 2 - δ ^ 2 = (R - δ) * (R + δ) := by ring
    have h1 : (R - δ) * (R + δ) ≤ 18 * u * D * (2.2 * D) := mul_le_mul hc.le (by linarith) (by linarith) (by positivity)
    linarith
  have hrn := rnd_le h hy.le
  have hyle : l - R ≤ r - 15 * (u * D) := by linarith
  have h5 : u * (l - R) ≤ u * D := mul_le_mul_of_nonneg_left (by linarith) hu0
  linarith

theorem sphereLoop_true' {p : Vec3} {R2 : ℝ} {ps : List Vec3} {is : List TriI}
    {ts : List (Vec3 × Vec3 × Vec3)} (hs : soup ps is = some ts) :
    ∃ b, Rounded.sphereLoop rnd p R2 ps is = .ok b ∧
      (b = true ↔ ∃ t ∈ ts, Rounded.sphereHitsTriangle rnd p R2 t.1 t.2.1 t.2.2 = true) := by
  rw [Mesh.soup_some] at hs
  induction hs with
  | nil => exact ⟨false, rfl, by simp⟩
  | @cons i c is ts hc _ ih =>
    obtain ⟨b, hb, hiff⟩ := ih
    obtain ⟨h1, h2, h3⟩ := hc
    unfold Rounded.sphereLoop
    simp only [vget, h1, h2, h3, bind, Except.bind, pure, Except.pure]
    by_cases hh : Rounded.sphereHitsTriangle rnd p R2 c.1 c.2.1 c.2.2 = true
    · exact ⟨true, by simp [hh], by simp [hh]⟩
    · exact ⟨b, by simp [hh, hb], by simp [hh, hiff]⟩

/-- The corners of the triangles are within the radius. -/
theorem corners_near {ps : List Vec3} {is : List TriI} {ts : List (Vec3 × Vec3 × Vec3)} {r : ℝ}
    (hr : IsRadius ps r) (hr0 : 0 ≤ r) (hs : soup ps is = some ts) {t} (ht : t ∈ ts) (p : Vec3) :
    distSq t.1 p ≤ (p.length + r) ^ 2 ∧ distSq t.2.1 p ≤ (p.length + r) ^ 2 ∧ distSq t.2.2 p ≤ (p.length + r) ^ 2 := by
  have key : ∀ {v : Vec3}, InTri t v → distSq v p ≤ (p.length + r) ^ 2 := by
    intro v hv
    have h1 := length_le hr0 (inTri_radius hr hs ht hv)
    have h2 := length_le_add (v - p) v
    have h3 : (v - p - v).length = p.length := by
      rw [show v - p - v = -p by ext <;> simp, length_neg]
    rw [← length2_sub, ← length_sq]
    exact pow_le_pow_left₀ (length_nonneg _) (by linarith) 2
  exact ⟨key ⟨1, 0, 0, by norm_num, le_rfl, le_rfl, by norm_num, by ext <;> simp⟩,
    key ⟨0, 1, 0, by norm_num, by norm_num, le_rfl, by norm_num, by ext <;> simp⟩,
    key ⟨0, 0, 1, by norm_num, by norm_num, by norm_num, by norm_num, by ext <;> simp⟩⟩

/-- A mesh with a noticed triangle. -/
theorem mesh_true {s : Shape} {ts : List (Vec3 × Vec3 × Vec3)} (hs : soup s.mesh.points s.mesh.tris = some ts) {p : Vec3} {R : ℝ}
    (hR : 0 < R) (he : ¬ rnd (Rounded.length rnd p - R) > Rounded.maxRadius rnd s.mesh.points) {t} (ht : t ∈ ts)
    (hh : Rounded.sphereHitsTriangle rnd p (rnd (R * R)) t.1 t.2.1 t.2.2 = true) :
    Rounded.intersectSphere rnd s p R = .ok true := by
  obtain ⟨b, hb, hiff⟩ := sphereLoop_true' (rnd := rnd) (p := p) (R2 := rnd (R * R)) hs
  have hbt : b = true := hiff.2 ⟨t, ht, hh⟩
  unfold Rounded.intersectSphere
  rw [if_neg he, if_pos hR, hb, hbt]
  simp [bind, Except.bind, pure, Except.pure]

/-- A sufficient condition without roots. -/
theorem stout_of {K a b c L : ℝ} {v1 v2 v3 : Vec3} (hK : 0 ≤ K) (ha : 0 ≤ a) (hb : 0 ≤ b) (hc : 0 ≤ c) (hL : 0 < L)
    (h1 : distSq v1 v2 ≤ a ^ 2) (h2 : distSq v2 v3 ≤ b ^ 2) (h3 : distSq v3 v1 ≤ c ^ 2) (h4 : L ^ 2 ≤ area4 v1 v2 v3)
    (k1 : a * b ≤ K * L) (k2 : b * c ≤ K * L) (k3 : c * a ≤ K * L) : Stout K (v1, v2, v3) := by
  have hA : L ≤ 2 * heron v1 v2 v3 := by
    have := Real.le_sqrt_of_sq_le h4
    rw [heron_area4]; linarith
  have d : ∀ {v w : Vec3} {e : ℝ}, 0 ≤ e → distSq v w ≤ e ^ 2 → Spec.dist v w ≤ e := fun h0 h => Real.sqrt_le_iff.2 ⟨h0, h⟩
  have d0 : ∀ v w : Vec3, 0 ≤ Spec.dist v w := fun v w => Real.sqrt_nonneg _
  have hKA : K * L ≤ K * (2 * heron v1 v2 v3) := mul_le_mul_of_nonneg_left hA hK
  refine ⟨by simp only; linarith, ?_, ?_, ?_⟩
  · exact (mul_le_mul (d ha h1) (d hb h2) (d0 _ _) ha).trans (k1.trans hKA)
  · exact (mul_le_mul (d hb h2) (d hc h3) (d0 _ _) hb).trans (k2.trans hKA)
  · exact (mul_le_mul (d hc h3) (d ha h1) (d0 _ _) hc).trans (k3.trans hKA)

/-- The points of a triangle are at least as far away as its plane. -/
theorem side_le {v1 v2 v3 p x : Vec3} (hx : InTri (v1, v2, v3) x) :
    side (v1, v2, v3) p ^ 2 ≤ area4 v1 v2 v3 * distSq p x := by
  obtain ⟨a, b, c, -, -, -, hs, rfl⟩ := hx
  have ha : a = 1 - b - c := by linarith
  subst ha
  have e : side (v1, v2, v3) p = ((v2 - v1).cross (v3 - v1)).dot (p - ⟨(1 - b - c) * v1.x + b * v2.x + c * v3.x,
      (1 - b - c) * v1.y + b * v2.y + c * v3.y, (1 - b - c) * v1.z + b * v2.z + c * v3.z⟩) := by
    simp only [side, Vec3.cross, Vec3.dot, Vec3.sub_x, Vec3.sub_y, Vec3.sub_z]; ring
  have e2 : area4 v1 v2 v3 = ((v2 - v1).cross (v3 - v1)).length2 := by
    simp only [area4, Vec3.cross, Vec3.length2, Vec3.sub_x, Vec3.sub_y, Vec3.sub_z]; ring
  rw [e, e2, ← length2_sub, ← length_sq, ← length_sq, ← mul_pow]
  exact sq_le_sq' (abs_le.1 (abs_dot _ _)).1 (abs_le.1 (abs_dot _ _)).2

end Geo.RoundedSphere
