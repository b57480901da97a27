import Verif.Lemmas.RoundedRaster
import Verif.Lemmas.DepthCameraRender

/-!
# Rendering a mesh in floating point arithmetic
-/

namespace Geo.Rounded

open Spec
open Raster (Edge Sink still sort)

/-! ## Without rounding -/

theorem round_id (a : Fl) : a.round id = a := by cases a <;> rfl

theorem pixels_id (y : ℤ) (dd : Fl) (tri : ℕ) : ∀ (n : ℕ) (x : ℤ) (d : Fl),
    pixels id y dd tri n x d = Raster.pixels y dd tri n x d
  | 0, _, _ => rfl
  | n + 1, x, d => by rw [pixels, Raster.pixels, round_id, round_id, pixels_id]

theorem row_id (width : ℕ) (y : ℤ) (xs xe ds de : Fl) (tri : ℕ) :
    row id width y xs xe ds de tri = Raster.row width y xs xe ds de tri := by
  unfold row Raster.row
  simp only [round_id, pixels_id]

theorem next_id (e : Edge) : next id e = e.next := by simp only [next, Edge.next, round_id]

theorem jump_id (e : Edge) (n : ℤ) : jump id e n = e.jump n := by simp only [jump, Edge.jump, round_id, id]

theorem rows_id (width tri : ℕ) : ∀ (n : ℕ) (y : ℤ) (s e : Edge), rows id width tri n y s e = Raster.rows width tri n y s e
  | 0, _, _, _ => rfl
  | n + 1, y, s, e => by simp only [rows, Raster.rows, row_id, next_id, rows_id]

theorem part_id (width height : ℕ) (y0 y1 : ℤ) (s e : Edge) (tri : ℕ) :
    part id width height y0 y1 s e tri = Raster.part width height y0 y1 s e tri := by
  unfold part Raster.part
  simp only [jump_id, rows_id]

theorem edge_id (p q : Vec3) (n : ℤ) : edge id p q n = Raster.edge p q n := by simp only [edge, Raster.edge, round_id, id]

theorem triangle2D_id (width height : ℕ) (culling : Bool) (p1 p2 p3 : Vec3) (tri : ℕ) :
    triangle2D id width height culling p1 p2 p3 tri = Raster.triangle2D width height culling p1 p2 p3 tri := by
  unfold triangle2D Raster.triangle2D
  simp only [part_id, edge_id, culls, Raster.culls, id, primeCoord]
  rfl

theorem corner_id (c : Camera) (p : Vec3) : corner id id c p = Raster.corner c p := by
  simp only [corner, Raster.corner, project3Dto2Dfloat, project3Dto2D, Camera.project3Dto2D, id]

theorem nearClip_id : nearClip id = Raster.nearClip := rfl

theorem clip_id (v w : Vec3) : clip id id v w = Raster.clip v w := by
  simp only [clip, Raster.clip, nearClip_id, id]
  rfl

theorem clipped_id (p1 p2 p3 : Vec3) : clipped id id p1 p2 p3 = Raster.clipped p1 p2 p3 := by
  unfold clipped Raster.clipped
  simp only [nearClip_id, clip_id]
  rfl

theorem triangles3D_id (c : Camera) (width height : ℕ) (culling : Bool) (tri : ℕ) : ∀ ts : List (Vec3 × Vec3 × Vec3),
    triangles3D id id c width height culling tri ts = Raster.triangles3D c width height culling tri ts
  | [] => rfl
  | (p1, p2, p3) :: ts => by simp only [triangles3D, Raster.triangles3D, triangle2D_id, corner_id, triangles3D_id]

theorem loop_id {σ : Type} (k : Sink σ) (c : Camera) (width height : ℕ) (culling : Bool) (points : List Vec3) :
    ∀ (ts : List TriI) (i : ℕ) (s : σ),
      loop id id k c width height culling points i ts s = Raster.loop k c width height culling points i ts s
  | [], _, _ => rfl
  | t :: ts, i, s => by simp only [loop, Raster.loop, clipped_id, triangles3D_id, loop_id]

theorem apply_id (T : Transform3) (v : Vec3) : apply id T v = T.apply v := by
  simp only [apply, add, mulVec, dot3, Transform3.apply, Mat3.mulVec, id]
  rfl

theorem render_id {σ : Type} (k : Sink σ) (c : Camera) (width height : ℕ) (m : Mesh) (T : Transform3) (culling : Bool) (s : σ) :
    render id id k c width height m T culling s = Raster.render k c width height m T culling s := by
  unfold render Raster.render
  simp only [apply_id, nearClip_id, loop_id]

/-! ## Clipped and projected corners -/

section

variable {u v : ℝ} {rnd rndD : ℝ → ℝ}

theorem rnd_le (h : RelErr u rnd) (hu' : u ≤ 1 / 1000) {x X : ℝ} (hx : |x| ≤ X) : |rnd x| ≤ 1.001 * X := by
  have h1 := h x
  have h2 := abs_sub_abs_le_abs_sub (rnd x) x
  have h3 := mul_le_mul_of_nonneg_right hu' (abs_nonneg x)
  linarith

theorem nearClip_near (h : RelErr v rndD) (hv' : v ≤ 1 / 1000) : |nearClip rndD + 1 / 10| ≤ 1 / 10000 := by
  have h1 := h (-1 / 10)
  rw [show |(-1 / 10 : ℝ)| = 1 / 10 by rw [abs_of_neg] <;> norm_num] at h1
  unfold nearClip
  rw [show rndD (-1 / 10) + 1 / 10 = rndD (-1 / 10) - -1 / 10 by ring]
  linarith

/-- The rounded value of a positive number is positive and near. -/
theorem rnd_pos (h : RelErr u rnd) (hu' : u ≤ 1 / 1000) {x : ℝ} (hx : 0 < x) : 0.999 * x ≤ rnd x ∧ rnd x ≤ 1.001 * x := by
  obtain ⟨a, b⟩ := abs_le.1 (h x)
  rw [abs_of_pos hx] at a b
  have := mul_le_mul_of_nonneg_right hu' hx.le
  constructor <;> linarith

theorem clip_bound (h : RelErr u rnd) (hu' : u ≤ 1 / 1000) (hD : RelErr v rndD) (hv' : v ≤ 1 / 1000) {p q : Vec3} {K : ℝ}
    (hp : |p.x| ≤ K ∧ |p.y| ≤ K) (hq : |q.x| ≤ K ∧ |q.y| ≤ K) (hpz : p.z < nearClip rndD) (hqz : ¬ q.z < nearClip rndD) :
    |(clip rnd rndD p q).x| ≤ 3.1 * K ∧ |(clip rnd rndD p q).y| ≤ 3.1 * K := by
  have K0 : 0 ≤ K := (abs_nonneg _).trans hp.1
  have a1 : 0 < nearClip rndD - p.z := by linarith
  have a2 : nearClip rndD - p.z ≤ q.z - p.z := by rw [not_lt] at hqz; linarith
  obtain ⟨b1, b2⟩ := rnd_pos hD hv' a1
  obtain ⟨c1, c2⟩ := rnd_pos hD hv' (a1.trans_le a2)
  have d0 : 0 < rndD (q.z - p.z) := by linarith
  have d1 : |rndD (nearClip rndD - p.z) / rndD (q.z - p.z)| ≤ 1.003 := by
    rw [abs_of_nonneg (div_nonneg (by linarith) d0.le), div_le_iff₀ d0]
    linarith
  have d2 := rnd_le hD hv' d1
  have d3 := rnd_le h hu' d2
  have key : ∀ {a b t : ℝ}, |a| ≤ K → |b| ≤ K → |t| ≤ 1.001 * (1.001 * 1.003) →
      |rndD (a + rndD (rndD (b - a) * t))| ≤ 3.1 * K := by
    intro a b t ha hb ht
    have e1 : |b - a| ≤ 2 * K := by
      have := abs_sub b a
      linarith
    have e2 := rnd_le hD hv' e1
    have e3 : |rndD (b - a) * t| ≤ 1.001 * (2 * K) * (1.001 * (1.001 * 1.003)) := by
      rw [abs_mul]
      exact mul_le_mul e2 ht (abs_nonneg _) (by linarith)
    have e4 := rnd_le hD hv' e3
    have e5 : |a + rndD (rndD (b - a) * t)| ≤ K + 1.001 * (1.001 * (2 * K) * (1.001 * (1.001 * 1.003))) := by
      have := abs_add_le a (rndD (rndD (b - a) * t))
      linarith
    have e6 := rnd_le hD hv' e5
    linarith
  exact ⟨key hp.1 hq.1 d3, key hp.2 hq.2 d3⟩

theorem corner_small (h : RelErr u rnd) (hu' : u ≤ 1 / 1000) (hD : RelErr v rndD) (hv' : v ≤ 1 / 1000) {c : Camera} {K : ℝ}
    (hc : Modest c K) {p : Vec3} (hp : |p.x| ≤ 3.1 * K ∧ |p.y| ≤ 3.1 * K) (hz : p.z ≤ nearClip rndD) :
    Small (corner rnd rndD c p) := by
  have hK : 0 ≤ K := by
    have := (abs_nonneg _).trans hp.1
    linarith
  have hz' : 0.0999 ≤ -p.z := by
    have := (abs_le.1 (nearClip_near hD hv')).2
    linarith
  have key : ∀ f w T o B : ℝ, |w| ≤ 3.1 * K → 11 * (4 * |f| * K + |T|) + 2 * |o| < B →
      |rnd (rndD (rndD (rndD (rndD (f * w) + T) / -p.z) + o))| < B := by
    intro f w T o B hw hB
    have f0 := abs_nonneg f
    have fK : 0 ≤ |f| * K := mul_nonneg f0 hK
    have e1 : |f * w| ≤ 3.1 * (|f| * K) := by
      rw [abs_mul]
      have := mul_le_mul_of_nonneg_left hw f0
      linarith
    have e2 := rnd_le hD hv' e1
    have e3 : |rndD (f * w) + T| ≤ 1.001 * (3.1 * (|f| * K)) + |T| := by
      have := abs_add_le (rndD (f * w)) T
      linarith
    have e4 := rnd_le hD hv' e3
    have T0 := abs_nonneg T
    have e5 : |rndD (rndD (f * w) + T) / -p.z| ≤ 10.02 * (1.001 * (1.001 * (3.1 * (|f| * K)) + |T|)) := by
      rw [abs_div, abs_of_pos (by linarith : 0 < -p.z), div_le_iff₀ (by linarith)]
      have := mul_le_mul_of_nonneg_left hz' (by positivity : 0 ≤ 10.02 * (1.001 * (1.001 * (3.1 * (|f| * K)) + |T|)))
      linarith
    have e6 := rnd_le hD hv' e5
    have e7 := abs_add_le (rndD (rndD (rndD (f * w) + T) / -p.z)) o
    have e8 := rnd_le hD hv' (e7.trans (add_le_add_left e6 _))
    have e9 := rnd_le h hu' e8
    have o0 := abs_nonneg o
    linarith
  exact ⟨key c.fx p.x c.Tx c.cx _ hp.1 hc.1, key c.fy (-p.y) c.Ty c.cy _ (by rw [abs_neg]; exact hp.2) hc.2⟩

theorem clipped_small (h : RelErr u rnd) (hu' : u ≤ 1 / 1000) (hD : RelErr v rndD) (hv' : v ≤ 1 / 1000) {c : Camera} {K : ℝ}
    (hc : Modest c K) {p1 p2 p3 : Vec3} (h1 : |p1.x| ≤ K ∧ |p1.y| ≤ K)
    (h2 : |p2.x| ≤ K ∧ |p2.y| ≤ K) (h3 : |p3.x| ≤ K ∧ |p3.y| ≤ K) :
    ∀ t ∈ clipped rnd rndD p1 p2 p3, Small (corner rnd rndD c t.1) ∧ Small (corner rnd rndD c t.2.1) ∧
      Small (corner rnd rndD c t.2.2) := by
  have K0 : 0 ≤ K := (abs_nonneg _).trans h1.1
  have inn : ∀ {p : Vec3}, |p.x| ≤ K ∧ |p.y| ≤ K → p.z < nearClip rndD → Small (corner rnd rndD c p) := by
    intro p hp hz
    exact corner_small h hu' hD hv' hc ⟨by linarith [hp.1], by linarith [hp.2]⟩ hz.le
  have cut : ∀ {p q : Vec3}, |p.x| ≤ K ∧ |p.y| ≤ K → |q.x| ≤ K ∧ |q.y| ≤ K → p.z < nearClip rndD → ¬ q.z < nearClip rndD →
      Small (corner rnd rndD c (clip rnd rndD p q)) := by
    intro p q hp hq hz hz'
    exact corner_small h hu' hD hv' hc (clip_bound h hu' hD hv' hp hq hz hz') le_rfl
  intro t ht
  unfold clipped at ht
  by_cases z1 : p1.z < nearClip rndD <;> by_cases z2 : p2.z < nearClip rndD <;> by_cases z3 : p3.z < nearClip rndD <;>
    simp only [z1, z2, z3, decide_true, decide_false, List.mem_cons, List.not_mem_nil, or_false] at ht
  · subst ht
    exact ⟨inn h1 z1, inn h2 z2, inn h3 z3⟩
  · rcases ht with rfl | rfl
    · exact ⟨inn h1 z1, inn h2 z2, cut h1 h3 z1 z3⟩
    · exact ⟨cut h1 h3 z1 z3, inn h2 z2, cut h2 h3 z2 z3⟩
  · rcases ht with rfl | rfl
    · exact ⟨inn h3 z3, inn h1 z1, cut h3 h2 z3 z2⟩
    · exact ⟨cut h3 h2 z3 z2, inn h1 z1, cut h1 h2 z1 z2⟩
  · subst ht
    exact ⟨inn h1 z1, cut h1 h2 z1 z2, cut h1 h3 z1 z3⟩
  · rcases ht with rfl | rfl
    · exact ⟨inn h2 z2, inn h3 z3, cut h2 h1 z2 z1⟩
    · exact ⟨cut h2 h1 z2 z1, inn h3 z3, cut h3 h1 z3 z1⟩
  · subst ht
    exact ⟨inn h2 z2, cut h2 h3 z2 z3, cut h2 h1 z2 z1⟩
  · subst ht
    exact ⟨inn h3 z3, cut h3 h1 z3 z1, cut h3 h2 z3 z2⟩

/-- Three small corners have a common bound. -/
theorem small_bound {p1 p2 p3 : Vec3} (s1 : Small p1) (s2 : Small p2) (s3 : Small p3) :
    ∃ M : ℝ, M < 2 ^ 30 ∧ |p1.x| ≤ M ∧ |p2.x| ≤ M ∧ |p3.x| ≤ M :=
  ⟨max |p1.x| (max |p2.x| |p3.x|), max_lt s1.1 (max_lt s2.1 s3.1), le_max_left _ _,
    (le_max_left _ _).trans (le_max_right _ _), (le_max_right _ _).trans (le_max_right _ _)⟩

theorem triangle2D_in (h : RelErr u rnd) (hu : 0 ≤ u) (hu' : u ≤ 1 / 1000) (width : ℕ) {height : ℕ}
    (hh : (2 * height + 60) * u ≤ 1) (culling : Bool) {p1 p2 p3 : Vec3} (tri : ℕ) (s1 : Small p1) (s2 : Small p2)
    (s3 : Small p3) : ∃ cs, triangle2D rnd width height culling p1 p2 p3 tri = .ok cs ∧
      ∀ c ∈ cs, InImage width height c.x c.y ∧ c.tri = tri := by
  obtain ⟨M, hM, m1, m2, m3⟩ := small_bound s1 s2 s3
  obtain ⟨cs, e1, e2, e3⟩ := triangle2D_ok h hu hu' width hh culling tri s1 s2 s3 hM m1 m2 m3
  refine ⟨cs, e1, fun p hp => ?_⟩
  by_cases hw : (culling = true ∧ culls rnd p1 p2 p3) ∨ ¬ InWindow width height p1 p2 p3
  · rw [e2 hw] at hp
    simp at hp
  · rw [not_or, not_not] at hw
    have := (e3 hw.1 hw.2).1 p hp
    exact ⟨this.1, this.2.1⟩

theorem triangles3D_ok (h : RelErr u rnd) (hu : 0 ≤ u) (hu' : u ≤ 1 / 1000) (rndD : ℝ → ℝ) (c : Camera) (width : ℕ) {height : ℕ}
    (hh : (2 * height + 60) * u ≤ 1) (culling : Bool) (tri : ℕ) : ∀ ts : List (Vec3 × Vec3 × Vec3),
    (∀ t ∈ ts, Small (corner rnd rndD c t.1) ∧ Small (corner rnd rndD c t.2.1) ∧ Small (corner rnd rndD c t.2.2)) →
    ∃ cs, triangles3D rnd rndD c width height culling tri ts = .ok cs ∧ ∀ p ∈ cs, InImage width height p.x p.y ∧ p.tri = tri
  | [], _ => ⟨[], rfl, by simp⟩
  | (p1, p2, p3) :: ts, hs => by
    obtain ⟨s1, s2, s3⟩ := hs _ List.mem_cons_self
    obtain ⟨cs, e1, e2⟩ := triangle2D_in h hu hu' width hh culling tri s1 s2 s3
    obtain ⟨rs, f1, f2⟩ := triangles3D_ok h hu hu' rndD c width hh culling tri ts (fun t ht => hs t (List.mem_cons_of_mem _ ht))
    refine ⟨cs ++ rs, ?_, fun p hp => ?_⟩
    · simp only [triangles3D, e1, f1, bind, Except.bind, pure, Except.pure]
    · rcases List.mem_append.1 hp with hp | hp
      · exact e2 p hp
      · exact f2 p hp

/-- Any invariant of the state that pixels inside the image keep is kept by rendering, which does not fail. -/
theorem loop_ok (h : RelErr u rnd) (hu : 0 ≤ u) (hu' : u ≤ 1 / 1000) (hD : RelErr v rndD) (hv' : v ≤ 1 / 1000) {σ : Type}
    (k : Sink σ) (c : Camera) (width : ℕ) {height : ℕ} (hh : (2 * height + 60) * u ≤ 1) (culling : Bool) {K : ℝ}
    (hc : Modest c K) {points : List Vec3} (hp : ∀ p ∈ points, |p.x| ≤ K ∧ |p.y| ≤ K) (I : σ → Prop)
    (hI : ∀ s p, I s → InImage width height p.x p.y → ∃ s', k.pixel s p = .ok s' ∧ I s') :
    ∀ (ts : List TriI) (i : ℕ) (s : σ), Valid points ts → I s →
      ∃ s', loop rnd rndD k c width height culling points i ts s = .ok s' ∧ I s'
  | [], _, s, _, hs => ⟨s, rfl, hs⟩
  | t :: ts, i, s, hv, hs => by
    obtain ⟨v1, v2, v3⟩ := hv t List.mem_cons_self
    obtain ⟨cs, e1, e2⟩ := triangles3D_ok h hu hu' rndD c width hh culling i _ (clipped_small h hu' hD hv' hc
      (hp _ (List.getElem_mem v1)) (hp _ (List.getElem_mem v2)) (hp _ (List.getElem_mem v3)))
    have hpx : ∀ (cs : List PixelCall) (s : σ), (∀ p ∈ cs, InImage width height p.x p.y) → I s →
        ∃ s', k.pixels cs s = .ok s' ∧ I s' := by
      intro cs
      induction cs with
      | nil => exact fun s _ hs => ⟨s, rfl, hs⟩
      | cons p ps ih =>
        intro s hin hs
        obtain ⟨s1, g1, g2⟩ := hI s p hs (hin p List.mem_cons_self)
        obtain ⟨s2, g3, g4⟩ := ih s1 (fun q hq => hin q (List.mem_cons_of_mem _ hq)) g2
        exact ⟨s2, by simp only [Sink.pixels, g1, bind, Except.bind]; exact g3, g4⟩
    obtain ⟨s1, f1, f2⟩ := hpx cs s (fun p hp => (e2 p hp).1) hs
    simp only [loop, vget_lt v1, vget_lt v2, vget_lt v3, e1, f1, bind, Except.bind, pure, Except.pure]
    by_cases hst : k.stopped s1 = true
    · rw [if_pos hst]
      exact ⟨s1, rfl, f2⟩
    · rw [if_neg hst]
      exact loop_ok h hu hu' hD hv' k c width hh culling hc hp I hI ts _ s1 (fun t ht => hv t (List.mem_cons_of_mem _ ht)) f2

theorem render_ok (h : RelErr u rnd) (hu : 0 ≤ u) (hu' : u ≤ 1 / 1000) (hD : RelErr v rndD) (hv' : v ≤ 1 / 1000) {σ : Type}
    (k : Sink σ) (c : Camera) (width : ℕ) {height : ℕ} (hh : (2 * height + 60) * u ≤ 1) (culling : Bool) {K : ℝ}
    (hc : Modest c K) {m : Mesh} {T : Transform3} (hv : Valid m.points m.tris)
    (hn : ∀ p ∈ m.points, |(apply rndD T p).x| ≤ K ∧ |(apply rndD T p).y| ≤ K) (I : σ → Prop)
    (hI : ∀ s p, I s → InImage width height p.x p.y → ∃ s', k.pixel s p = .ok s' ∧ I s') (s : σ) (hs : I s) :
    ∃ s', render rnd rndD k c width height m T culling s = .ok s' ∧ I s' := by
  unfold render
  dsimp only
  split_ifs
  · exact ⟨s, rfl, hs⟩
  · refine loop_ok h hu hu' hD hv' k c width hh culling hc (fun p hp => ?_) I hI m.tris 0 s (valid_map hv _) hs
    obtain ⟨q, hq, rfl⟩ := List.mem_map.1 hp
    exact hn q hq
  · exact ⟨s, rfl, hs⟩

end

end Geo.Rounded
