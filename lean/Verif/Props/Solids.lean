import Verif.Lemmas.Solids
import Verif.Props.Containment
import Verif.Props.Shapes

/-!
# Containment for the shapes made by createCylinder and createConvexPolygon (C99)
-/

namespace Geo

open Spec Shapes

/-- C99 (full statement refuted by `C99_vertex_wrong`; partial: probes in clear position, see `Clear`, and, for points above or
below the prism, through no vertex): the shape made by `createConvexPolygon` from a strictly convex clockwise polygon contains
the points of the prism and not those outside. -/
theorem C99_polygon_partial (s : Shape) (points : List Vec2) (height : ℝ) (h31 : 2 * points.length ≤ 2 ^ 31)
    (hc : StrictlyConvex (fun i => points.getD i ⟨0, 0⟩) points.length) (hh : 0 < height) :
    ∃ s', createConvexPolygon s points height = .ok s' ∧ ∀ r, IsRadius s'.mesh.points r → ∀ p,
      ClearProbe s'.mesh p ⟨1.1 * r, 0, 0⟩ → (height / 2 ≤ |p.z| → AvoidsVertices s'.mesh p ⟨1.1 * r, 0, 0⟩) →
      (Within (fun i => points.getD i ⟨0, 0⟩) points.length height p → s'.contains p = .ok true) ∧
      (Beyond (fun i => points.getD i ⟨0, 0⟩) points.length height p → s'.contains p = .ok false) := by
  have hn : 2 ≤ points.length := le_trans (by omega) hc.1
  obtain ⟨s', h, hp, ht, hr, -⟩ := polygon_mesh s points height hn h31
  refine ⟨s', h, fun r hrad p hclear hav => ?_⟩
  obtain ⟨ts, hs, hcl⟩ := hclear
  have hv := avoids_contact hs (show AvoidsVertices s'.mesh p ⟨1.1 * r, 0, 0⟩ from
    (lt_or_ge |p.z| (height / 2)).elim (between_avoids hp) hav)
  have hts : ts = (caps points.length ++ sides points.length).map (corner3 (fun i => points.getD i ⟨0, 0⟩) height) := by
    have e := ring_soup (fun i => points.getD i ⟨0, 0⟩) height (valid_prism hn)
    rw [hp, ht, e] at hs
    exact (Option.some.inj hs).symm
  have hlen : s'.mesh.points.length ≤ 2 ^ 32 := by
    rw [hp, ring_length]; omega
  have hw : Watertight s'.mesh.tris := by rw [ht]; exact watertight_prism hn
  refine ⟨fun hin => ?_, fun hout => ?_⟩
  · exact C86_convex_partial s' hr ts hs hlen hw (hts ▸ prism_convex hc hh) (hts ▸ prism_face hc hh) r hrad p hcl hv
      (hts ▸ within_side hc hh hin)
  · exact C19_convex_partial s' hr ts hs hlen hw (hts ▸ prism_convex hc hh) r hrad p hcl hv (hts ▸ beyond_side hc hh hout)

/-- C99 (partial, as `C99_polygon_partial`): the shape made by `createCylinder` contains the points of the largest cylinder
inside the polygon and not those outside the cylinder. The probe ends at 1.1 times the radius of its bounding sphere. -/
theorem C99_cylinder_partial (s : Shape) {radius height : ℝ} (hr0 : 0 < radius) (hh : 0 < height) {n : ℕ} (hn : 3 ≤ n)
    (h32 : 2 * n ≤ 2 ^ 32) :
    ∃ s', createCylinder s radius height n = .ok s' ∧ ∀ p,
      ClearProbe s'.mesh p ⟨1.1 * √(radius ^ 2 + (height / 2) ^ 2), 0, 0⟩ →
      (height / 2 ≤ |p.z| → AvoidsVertices s'.mesh p ⟨1.1 * √(radius ^ 2 + (height / 2) ^ 2), 0, 0⟩) →
      (p.x ^ 2 + p.y ^ 2 < (radius * Real.cos (Real.pi / n)) ^ 2 ∧ |p.z| < height / 2 → s'.contains p = .ok true) ∧
      (radius ^ 2 < p.x ^ 2 + p.y ^ 2 ∨ height / 2 < |p.z| → s'.contains p = .ok false) := by
  have hn2 : 2 ≤ n := by omega
  obtain ⟨s', h, hp, ht, hr, -⟩ := cylinder_mesh s radius height hn2 h32
  refine ⟨s', h, fun p hclear hav => ?_⟩
  obtain ⟨ts, hs, hcl⟩ := hclear
  have hv := avoids_contact hs (show AvoidsVertices s'.mesh p ⟨1.1 * √(radius ^ 2 + (height / 2) ^ 2), 0, 0⟩ from
    (lt_or_ge |p.z| (height / 2)).elim (between_avoids hp) hav)
  have hc := circle_strict hr0 hn
  have hts : ts = (caps n ++ sides n).map (corner3 (circle radius n) height) := by
    have e := ring_soup (circle radius n) height (valid_prism hn2)
    rw [hp, ht] at hs
    exact (Option.some.inj (e.symm.trans hs)).symm
  have hlen : s'.mesh.points.length ≤ 2 ^ 32 := by
    rw [hp, ring_length]; omega
  have hw : Watertight s'.mesh.tris := by rw [ht]; exact watertight_prism hn2
  have hdist : ∀ q ∈ s'.mesh.points, Spec.dist q ⟨0, 0, 0⟩ = √(radius ^ 2 + (height / 2) ^ 2) := by
    intro q hq
    obtain ⟨h1, h2⟩ := C69_cylinder_on s radius height hn2 h32 h q hq
    unfold Spec.dist distSq
    congr 1
    have : q.z ^ 2 = (height / 2) ^ 2 := by
      rcases h2 with h2 | h2 <;> rw [h2] <;> ring
    linear_combination h1 + this
  have hrad : IsRadius s'.mesh.points (√(radius ^ 2 + (height / 2) ^ 2)) := by
    refine ⟨fun q hq => (hdist q hq).le, .inl ?_⟩
    have h0 : 0 < s'.mesh.points.length := by rw [hp, ring_length]; omega
    exact ⟨s'.mesh.points[0], List.getElem_mem h0, hdist _ (List.getElem_mem h0)⟩
  refine ⟨fun ⟨hin, hz⟩ => ?_, fun hout => ?_⟩
  · obtain ⟨z1, z2⟩ := abs_lt.1 hz
    exact C86_convex_partial s' hr ts hs hlen hw (hts ▸ prism_convex hc hh) (hts ▸ prism_face hc hh) _ hrad p hcl hv
      (hts ▸ within_side hc hh (circle_within hr0 hn z1 z2 hin))
  · refine C19_convex_partial s' hr ts hs hlen hw (hts ▸ prism_convex hc hh) _ hrad p hcl hv (hts ▸ beyond_side hc hh ?_)
    rcases hout with hout | hout
    · exact circle_beyond hr0 hn hout
    · rcases lt_abs.1 hout with hz | hz
      · exact .inr (.inl hz)
      · exact .inl (by linarith)

/-- A point in a column with four corners and one outside it, both in its bounding sphere. -/
example : ∃ s', createCylinder Shape.new 4 6 4 = .ok s' ∧ s'.contains ⟨3 / 10, 2 / 5, -1 / 2⟩ = .ok true ∧
    s'.contains ⟨-3, 3, 1 / 2⟩ = .ok false := by
  obtain ⟨s', h, hall⟩ := C99_cylinder_partial Shape.new (radius := 4) (height := 6) (by norm_num) (by norm_num) (n := 4)
    (by norm_num) (by norm_num)
  obtain ⟨s'', h2, hp, ht, -⟩ := cylinder_mesh Shape.new 4 6 (n := 4) (by norm_num) (by norm_num)
  rw [h] at h2
  cases h2
  have e5 : √((4 : ℝ) ^ 2 + (6 / 2) ^ 2) = 5 := by
    rw [show (4 : ℝ) ^ 2 + (6 / 2) ^ 2 = 5 ^ 2 by norm_num]; exact Real.sqrt_sq (by norm_num)
  have hs : soup s'.mesh.points s'.mesh.tris = some columnTs := by
    rw [hp, ht, ring_soup _ _ (valid_prism (by norm_num))]
    have c1 : 2 * Real.pi / 4 = Real.pi / 2 := by ring
    have c2 : 2 * Real.pi * 2 / 4 = Real.pi := by ring
    have c3 : 2 * Real.pi * 3 / 4 = Real.pi / 2 + Real.pi := by ring
    norm_num [caps, sides, List.range', vertex, columnTs, c1, c2, c3, Real.sin_add_pi, Real.cos_add_pi]
  rw [e5] at hall
  refine ⟨s', h, (hall _ ⟨columnTs, hs, fun t ht => (column_in t ht).1⟩ (fun hz => absurd hz ?_)).1 ?_,
    (hall _ ⟨columnTs, hs, fun t ht => (column_out t ht).1⟩ (fun hz => absurd hz ?_)).2 ?_⟩
  · norm_num [abs_lt]
  · have : Real.cos (Real.pi / (4 : ℕ)) ^ 2 = 1 / 2 := by
      push_cast
      rw [Real.cos_pi_div_four, div_pow, Real.sq_sqrt (by norm_num)]; norm_num
    refine ⟨?_, by norm_num [abs_lt]⟩
    rw [mul_pow, this]; norm_num
  · norm_num [abs_lt]
  · left; norm_num

/-- A point in the prism over a triangle and one above it, both in its bounding sphere. -/
example : ∃ s', createConvexPolygon Shape.new [⟨2, 2⟩, ⟨1, -2⟩, ⟨-2, 1⟩] 2 = .ok s' ∧
    s'.contains ⟨3 / 10, 2 / 5, -1 / 5⟩ = .ok true ∧ s'.contains ⟨-1, 1, 5 / 4⟩ = .ok false := by
  obtain ⟨s', h, hall⟩ := C99_polygon_partial Shape.new [⟨2, 2⟩, ⟨1, -2⟩, ⟨-2, 1⟩] 2 (by simp) (by
    refine ⟨by simp, fun i hi k hk => ?_⟩
    have hi' : i < 3 := hi
    have hk' : k < 3 := hk
    interval_cases i <;> interval_cases k <;> norm_num [leftOf]) (by norm_num)
  obtain ⟨s'', h2, hp, ht, -⟩ := polygon_mesh Shape.new [⟨2, 2⟩, ⟨1, -2⟩, ⟨-2, 1⟩] 2 (by simp) (by simp)
  rw [h] at h2
  cases h2
  have hs : soup s'.mesh.points s'.mesh.tris = some wedgeTs := by
    rw [hp, ht, ring_soup _ _ (valid_prism (by simp))]
    norm_num [caps, sides, List.range', vertex, wedgeTs]
  have hrad : IsRadius s'.mesh.points 3 := by
    have e9 : Real.sqrt 9 = 3 := by rw [show (9:ℝ) = 3 ^ 2 by norm_num]; exact Real.sqrt_sq (by norm_num)
    rw [hp]
    constructor
    · intro q hq
      rw [Spec.dist, Real.sqrt_le_left (by norm_num)]
      simp [ring, List.range'] at hq
      rcases hq with rfl | rfl | rfl | rfl | rfl | rfl <;> simp only [distSq] <;> norm_num
    · left
      refine ⟨⟨2, 2, 1⟩, by simp [ring, List.range'], ?_⟩
      rw [← e9, Spec.dist]; congr 1; simp only [distSq]; norm_num
  refine ⟨s', h, (hall 3 hrad _ ⟨wedgeTs, hs, fun t ht => (wedge_in t ht).1⟩ (fun hz => absurd hz ?_)).1 ?_,
    (hall 3 hrad _ ⟨wedgeTs, hs, fun t ht => (wedge_out t ht).1⟩ ?_).2 ?_⟩
  · norm_num [abs_lt]
  · refine ⟨by norm_num, by norm_num, fun i hi => ?_⟩
    have hi' : i < 3 := hi
    interval_cases i <;> norm_num [leftOf]
  · intro _ v hv s s0 s1 he
    rw [hp] at hv
    simp [ring, List.range'] at hv
    rcases hv with rfl | rfl | rfl | rfl | rfl | rfl <;> simp only [lerp, Vec3.mk.injEq] at he <;>
      obtain ⟨e1, e2, e3⟩ := he <;> norm_num at e1 <;> linarith
  · right; left; norm_num

/-- C99 fails for points whose probe passes through a vertex: `(11.77, 0, 5.5)` is half a unit above a cylinder with four corners,
radius 12 and height 10, but `contains` is true for it. The probe touches the cylinder in the vertex `(12, 0, 5)` only. (In
doubles sines and side products are rounded here; compare `C99_vertex_wrong`.) -/
theorem C99_cylinder_wrong : ∃ s', createCylinder Shape.new 12 10 4 = .ok s' ∧ s'.contains ⟨11.77, 0, 5.5⟩ = .ok true ∧
    Beyond (circle 12 4) 4 10 ⟨11.77, 0, 5.5⟩ ∧ Prism s'.mesh (circle 12 4) 4 10 := by
  have t0 : ∀ st, Shape.containsStep ⟨11.77, 0, 5.5⟩ ⟨1.1 * 13, 0, 0⟩ ⟨0, 2, 4⟩ ⟨0, 12, -5⟩ ⟨12, 0, -5⟩ ⟨0, -12, -5⟩ st =
      .go st := by
    intro st
    unfold Shape.containsStep
    simp only [sideProduct_eq, Shape.count3]
    norm_num
  have t1 : ∀ st, Shape.containsStep ⟨11.77, 0, 5.5⟩ ⟨1.1 * 13, 0, 0⟩ ⟨1, 5, 3⟩ ⟨0, 12, 5⟩ ⟨0, -12, 5⟩ ⟨12, 0, 5⟩ st =
      if st.vertex 3 = -1 then .go st else
        .go ⟨st.count + -1, st.edge, Function.update st.vertex 3 (st.vertex 3 + -1)⟩ := by
    intro st
    unfold Shape.containsStep
    simp only [sideProduct_eq, Shape.count3]
    norm_num
    intro h
    exfalso
    split_ifs at h <;> norm_num [Vec3.mk.injEq] at h
  have t2 : ∀ st, Shape.containsStep ⟨11.77, 0, 5.5⟩ ⟨1.1 * 13, 0, 0⟩ ⟨0, 4, 6⟩ ⟨0, 12, -5⟩ ⟨0, -12, -5⟩ ⟨-12, 0, -5⟩ st =
      .go st := by
    intro st
    unfold Shape.containsStep
    simp only [sideProduct_eq, Shape.count3]
    norm_num
  have t3 : ∀ st, Shape.containsStep ⟨11.77, 0, 5.5⟩ ⟨1.1 * 13, 0, 0⟩ ⟨1, 7, 5⟩ ⟨0, 12, 5⟩ ⟨-12, 0, 5⟩ ⟨0, -12, 5⟩ st =
      .go st := by
    intro st
    unfold Shape.containsStep
    simp only [sideProduct_eq, Shape.count3]
    norm_num
  have t4 : ∀ st, Shape.containsStep ⟨11.77, 0, 5.5⟩ ⟨1.1 * 13, 0, 0⟩ ⟨0, 1, 2⟩ ⟨0, 12, -5⟩ ⟨0, 12, 5⟩ ⟨12, 0, -5⟩ st =
      .go st := by
    intro st
    unfold Shape.containsStep
    simp only [sideProduct_eq, Shape.count3]
    norm_num
  have t5 : ∀ st, Shape.containsStep ⟨11.77, 0, 5.5⟩ ⟨1.1 * 13, 0, 0⟩ ⟨1, 3, 2⟩ ⟨0, 12, 5⟩ ⟨12, 0, 5⟩ ⟨12, 0, -5⟩ st =
      if st.vertex 3 = 1 then .go st else
        .go ⟨st.count + 1, st.edge, Function.update st.vertex 3 (st.vertex 3 + 1)⟩ := by
    intro st
    unfold Shape.containsStep
    simp only [sideProduct_eq, Shape.count3]
    norm_num
    intro h
    exfalso
    split_ifs at h <;> norm_num [Vec3.mk.injEq] at h
  have t6 : ∀ st, Shape.containsStep ⟨11.77, 0, 5.5⟩ ⟨1.1 * 13, 0, 0⟩ ⟨2, 3, 4⟩ ⟨12, 0, -5⟩ ⟨12, 0, 5⟩ ⟨0, -12, -5⟩ st =
      if st.vertex 3 = 1 then .go st else
        .go ⟨st.count + 1, st.edge, Function.update st.vertex 3 (st.vertex 3 + 1)⟩ := by
    intro st
    unfold Shape.containsStep
    simp only [sideProduct_eq, Shape.count3]
    norm_num
    intro h
    exfalso
    split_ifs at h <;> norm_num [Vec3.mk.injEq] at h
  have t7 : ∀ st, Shape.containsStep ⟨11.77, 0, 5.5⟩ ⟨1.1 * 13, 0, 0⟩ ⟨3, 5, 4⟩ ⟨12, 0, 5⟩ ⟨0, -12, 5⟩ ⟨0, -12, -5⟩ st =
      if st.vertex 3 = 1 then .go st else
        .go ⟨st.count + 1, st.edge, Function.update st.vertex 3 (st.vertex 3 + 1)⟩ := by
    intro st
    unfold Shape.containsStep
    simp only [sideProduct_eq, Shape.count3]
    norm_num
    intro h
    exfalso
    split_ifs at h <;> norm_num [Vec3.mk.injEq] at h
  have t8 : ∀ st, Shape.containsStep ⟨11.77, 0, 5.5⟩ ⟨1.1 * 13, 0, 0⟩ ⟨4, 5, 6⟩ ⟨0, -12, -5⟩ ⟨0, -12, 5⟩ ⟨-12, 0, -5⟩ st =
      .go st := by
    intro st
    unfold Shape.containsStep
    simp only [sideProduct_eq, Shape.count3]
    norm_num
  have t9 : ∀ st, Shape.containsStep ⟨11.77, 0, 5.5⟩ ⟨1.1 * 13, 0, 0⟩ ⟨5, 7, 6⟩ ⟨0, -12, 5⟩ ⟨-12, 0, 5⟩ ⟨-12, 0, -5⟩ st =
      .go st := by
    intro st
    unfold Shape.containsStep
    simp only [sideProduct_eq, Shape.count3]
    norm_num
  have t10 : ∀ st, Shape.containsStep ⟨11.77, 0, 5.5⟩ ⟨1.1 * 13, 0, 0⟩ ⟨6, 7, 0⟩ ⟨-12, 0, -5⟩ ⟨-12, 0, 5⟩ ⟨0, 12, -5⟩ st =
      .go st := by
    intro st
    unfold Shape.containsStep
    simp only [sideProduct_eq, Shape.count3]
    norm_num
  have t11 : ∀ st, Shape.containsStep ⟨11.77, 0, 5.5⟩ ⟨1.1 * 13, 0, 0⟩ ⟨7, 1, 0⟩ ⟨-12, 0, 5⟩ ⟨0, 12, 5⟩ ⟨0, 12, -5⟩ st =
      .go st := by
    intro st
    unfold Shape.containsStep
    simp only [sideProduct_eq, Shape.count3]
    norm_num
  obtain ⟨s', h, hp, ht, hreach, -⟩ := cylinder_mesh Shape.new 12 10 (n := 4) (by norm_num) (by norm_num)
  have hpts : s'.mesh.points = [⟨0, 12, -5⟩, ⟨0, 12, 5⟩, ⟨12, 0, -5⟩, ⟨12, 0, 5⟩, ⟨0, -12, -5⟩, ⟨0, -12, 5⟩, ⟨-12, 0, -5⟩, ⟨-12, 0, 5⟩] := by
    rw [hp]
    have c1 : 2 * Real.pi / 4 = Real.pi / 2 := by ring
    have c2 : 2 * Real.pi * 2 / 4 = Real.pi := by ring
    have c3 : 2 * Real.pi * 3 / 4 = Real.pi / 2 + Real.pi := by ring
    norm_num [ring, List.range', c1, c2, c3, Real.sin_add_pi, Real.cos_add_pi]
  have htris : s'.mesh.tris = [⟨0, 2, 4⟩, ⟨1, 5, 3⟩, ⟨0, 4, 6⟩, ⟨1, 7, 5⟩, ⟨0, 1, 2⟩, ⟨1, 3, 2⟩, ⟨2, 3, 4⟩, ⟨3, 5, 4⟩, ⟨4, 5, 6⟩, ⟨5, 7, 6⟩, ⟨6, 7, 0⟩, ⟨7, 1, 0⟩] := by
    rw [ht]; rfl
  refine ⟨s', h, ?_, .inr (.inl (by norm_num)), prism_of _ (by norm_num) 10 hp ht⟩
  have hr : IsRadius s'.mesh.points 13 := by
    have e : Real.sqrt 169 = 13 := by
      rw [show (169 : ℝ) = 13 ^ 2 by norm_num]; exact Real.sqrt_sq (by norm_num)
    rw [hpts]
    constructor
    · intro q hq
      rw [Spec.dist, Real.sqrt_le_left (by norm_num)]
      simp only [List.mem_cons, List.not_mem_nil, or_false] at hq
      rcases hq with rfl | rfl | rfl | rfl | rfl | rfl | rfl | rfl <;> simp only [distSq] <;> norm_num
    · left
      refine ⟨⟨12, 0, 5⟩, by simp, ?_⟩
      rw [← e, Spec.dist]; congr 1; simp only [distSq]; norm_num
  obtain ⟨hR, hR2, h0⟩ := radius_eq hreach.coherent hr
  unfold Shape.contains Shape.containsMesh
  rw [hR2, hR, if_neg (by simp only [Vec3.length2]; norm_num), hpts, htris]
  simp only [Shape.containsLoop, vget, List.getElem?_cons_succ, List.getElem?_cons_zero, bind, Except.bind, t0, t1, t2, t3, t4, t5, t6, t7, t8, t9, t10, t11]
  simp

/-- C99 fails for points whose probe passes through a vertex: `(25.5, 0, 15)` is 5 above the prism of height 20 over a triangle, but
`contains` is true for it. The probe touches the prism in the vertex `(28, 0, 10)` only. All numbers in this case are exact as
doubles (1.1 · 30 is rounded to 33). -/
theorem C99_vertex_wrong : ∃ s', createConvexPolygon Shape.new [⟨20, 20⟩, ⟨28, 0⟩, ⟨-20, -10⟩] 20 = .ok s' ∧
    StrictlyConvex (fun i => ([⟨20, 20⟩, ⟨28, 0⟩, ⟨-20, -10⟩] : List Vec2).getD i ⟨0, 0⟩) 3 ∧
    Beyond (fun i => ([⟨20, 20⟩, ⟨28, 0⟩, ⟨-20, -10⟩] : List Vec2).getD i ⟨0, 0⟩) 3 20 ⟨25.5, 0, 15⟩ ∧ s'.contains ⟨25.5, 0, 15⟩ = .ok true := by
  have t0 : ∀ st, Shape.containsStep ⟨25.5, 0, 15⟩ ⟨1.1 * 30, 0, 0⟩ ⟨0, 2, 4⟩ ⟨20, 20, -10⟩ ⟨28, 0, -10⟩ ⟨-20, -10, -10⟩ st =
      .go st := by
    intro st
    unfold Shape.containsStep
    simp only [sideProduct_eq, Shape.count3]
    norm_num
  have t1 : ∀ st, Shape.containsStep ⟨25.5, 0, 15⟩ ⟨1.1 * 30, 0, 0⟩ ⟨1, 5, 3⟩ ⟨20, 20, 10⟩ ⟨-20, -10, 10⟩ ⟨28, 0, 10⟩ st =
      if st.vertex 3 = -1 then .go st else
        .go ⟨st.count + -1, st.edge, Function.update st.vertex 3 (st.vertex 3 + -1)⟩ := by
    intro st
    unfold Shape.containsStep
    simp only [sideProduct_eq, Shape.count3]
    norm_num
    intro h
    exfalso
    split_ifs at h <;> norm_num [Vec3.mk.injEq] at h
  have t2 : ∀ st, Shape.containsStep ⟨25.5, 0, 15⟩ ⟨1.1 * 30, 0, 0⟩ ⟨0, 1, 2⟩ ⟨20, 20, -10⟩ ⟨20, 20, 10⟩ ⟨28, 0, -10⟩ st =
      .go st := by
    intro st
    unfold Shape.containsStep
    simp only [sideProduct_eq, Shape.count3]
    norm_num
  have t3 : ∀ st, Shape.containsStep ⟨25.5, 0, 15⟩ ⟨1.1 * 30, 0, 0⟩ ⟨1, 3, 2⟩ ⟨20, 20, 10⟩ ⟨28, 0, 10⟩ ⟨28, 0, -10⟩ st =
      if st.vertex 3 = 1 then .go st else
        .go ⟨st.count + 1, st.edge, Function.update st.vertex 3 (st.vertex 3 + 1)⟩ := by
    intro st
    unfold Shape.containsStep
    simp only [sideProduct_eq, Shape.count3]
    norm_num
    intro h
    exfalso
    split_ifs at h <;> norm_num [Vec3.mk.injEq] at h
  have t4 : ∀ st, Shape.containsStep ⟨25.5, 0, 15⟩ ⟨1.1 * 30, 0, 0⟩ ⟨2, 3, 4⟩ ⟨28, 0, -10⟩ ⟨28, 0, 10⟩ ⟨-20, -10, -10⟩ st =
      if st.vertex 3 = 1 then .go st else
        .go ⟨st.count + 1, st.edge, Function.update st.vertex 3 (st.vertex 3 + 1)⟩ := by
    intro st
    unfold Shape.containsStep
    simp only [sideProduct_eq, Shape.count3]
    norm_num
    intro h
    exfalso
    split_ifs at h <;> norm_num [Vec3.mk.injEq] at h
  have t5 : ∀ st, Shape.containsStep ⟨25.5, 0, 15⟩ ⟨1.1 * 30, 0, 0⟩ ⟨3, 5, 4⟩ ⟨28, 0, 10⟩ ⟨-20, -10, 10⟩ ⟨-20, -10, -10⟩ st =
      if st.vertex 3 = 1 then .go st else
        .go ⟨st.count + 1, st.edge, Function.update st.vertex 3 (st.vertex 3 + 1)⟩ := by
    intro st
    unfold Shape.containsStep
    simp only [sideProduct_eq, Shape.count3]
    norm_num
    intro h
    exfalso
    split_ifs at h <;> norm_num [Vec3.mk.injEq] at h
  have t6 : ∀ st, Shape.containsStep ⟨25.5, 0, 15⟩ ⟨1.1 * 30, 0, 0⟩ ⟨4, 5, 0⟩ ⟨-20, -10, -10⟩ ⟨-20, -10, 10⟩ ⟨20, 20, -10⟩ st =
      .go st := by
    intro st
    unfold Shape.containsStep
    simp only [sideProduct_eq, Shape.count3]
    norm_num
  have t7 : ∀ st, Shape.containsStep ⟨25.5, 0, 15⟩ ⟨1.1 * 30, 0, 0⟩ ⟨5, 1, 0⟩ ⟨-20, -10, 10⟩ ⟨20, 20, 10⟩ ⟨20, 20, -10⟩ st =
      .go st := by
    intro st
    unfold Shape.containsStep
    simp only [sideProduct_eq, Shape.count3]
    norm_num
  obtain ⟨s', h, hp, ht, hreach, -⟩ := polygon_mesh Shape.new [⟨20, 20⟩, ⟨28, 0⟩, ⟨-20, -10⟩] 20 (by simp) (by simp)
  have hpts : s'.mesh.points = [⟨20, 20, -10⟩, ⟨20, 20, 10⟩, ⟨28, 0, -10⟩, ⟨28, 0, 10⟩, ⟨-20, -10, -10⟩, ⟨-20, -10, 10⟩] := by
    rw [hp]
    norm_num [ring, List.range']
  have htris : s'.mesh.tris = [⟨0, 2, 4⟩, ⟨1, 5, 3⟩, ⟨0, 1, 2⟩, ⟨1, 3, 2⟩, ⟨2, 3, 4⟩, ⟨3, 5, 4⟩, ⟨4, 5, 0⟩, ⟨5, 1, 0⟩] := by
    rw [ht]; rfl
  refine ⟨s', h, ⟨le_rfl, fun i hi k hk => ?_⟩, .inr (.inl (by norm_num)), ?_⟩
  · interval_cases i <;> interval_cases k <;> norm_num [leftOf]
  have hr : IsRadius s'.mesh.points 30 := by
    have e : Real.sqrt 900 = 30 := by
      rw [show (900 : ℝ) = 30 ^ 2 by norm_num]; exact Real.sqrt_sq (by norm_num)
    rw [hpts]
    constructor
    · intro q hq
      rw [Spec.dist, Real.sqrt_le_left (by norm_num)]
      simp only [List.mem_cons, List.not_mem_nil, or_false] at hq
      rcases hq with rfl | rfl | rfl | rfl | rfl | rfl <;> simp only [distSq] <;> norm_num
    · left
      refine ⟨⟨20, 20, 10⟩, by simp, ?_⟩
      rw [← e, Spec.dist]; congr 1; simp only [distSq]; norm_num
  obtain ⟨hR, hR2, h0⟩ := radius_eq hreach.coherent hr
  unfold Shape.contains Shape.containsMesh
  rw [hR2, hR, if_neg (by simp only [Vec3.length2]; norm_num), hpts, htris]
  simp only [Shape.containsLoop, vget, List.getElem?_cons_succ, List.getElem?_cons_zero, bind, Except.bind, t0, t1, t2, t3, t4, t5, t6, t7]
  simp

end Geo
