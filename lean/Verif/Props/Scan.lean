import Verif.Lemmas.Scan
import Verif.Props.LaserRangeFinderMesh
import Verif.Props.Box

/-!
# Scans show the nearest surface point, and agree with the ray test of a box (C101)
-/

namespace Geo

open Spec

/-! ## C101 -/

/-- C101, for meshes seen within pi minus two beams, not below the first angle: if the nearest point of the surface on a beam
is strictly inside a triangle that has the sensor on its outer side, the beam shows the distance of that point, or an earlier
value if that is nearer. A beam on which there is no point of the surface before `b` keeps its value or shows at least `b`. -/
theorem C101_mesh_partial {l : LRF} (h : Fine l) (hR : 0 < l.rangeMax) (m : Mesh) (hm : GoodMesh m)
    (ts : List (Vec3 × Vec3 × Vec3)) (hs : soup m.points m.tris = some ts) (T : Transform3) (hT : Rotation T.R)
    {α : ℝ} (hα : l.aMin ≤ α) (hw : SeenWithin T (OnSurface ts) α (α + (Real.pi - 2 * spacing l)))
    (ranges : List EReal) {j : ℕ} (hj : j < l.numBeams) {o u : Vec3}
    (hB : BeamIn T (beamAngle l.aMin l.aMax l.numBeams j) o u) :
    ∃ res new, l.render m T ranges = .ok res ∧ res.ranges[j]? = some new ∧
      (∀ D, IsLeast {t | 0 < t ∧ OnSurface ts (along o u t)} D → D ≤ l.rangeMax →
        (∃ c ∈ ts, InsideTriangle c.1 c.2.1 c.2.2 (along o u D) ∧ 0 < side c o) →
        new = nearer ((ranges[j]?).getD 0) D) ∧
      (∀ b : ℝ, (∀ t, 0 < t → OnSurface ts (along o u t) → b ≤ t) → new = (ranges[j]?).getD 0 ∨ b ≤ new) := by
  have hr : Rigid T := hT.1
  obtain ⟨res, e1, -, e3⟩ := C77_render h m hm.2 T ranges
  obtain ⟨new, n1, n2⟩ := e3 j hj
  have ho : T.apply o = ⟨0, 0, 0⟩ := by
    have := hB 0
    simpa [along] using this
  have sec : ∀ t ∈ m.tris, ∀ A B C, PosedTriangle T m.points t A B C →
      ∀ q, InSection ⟨A.x, A.y⟩ ⟨B.x, B.y⟩ ⟨C.x, C.y⟩ A.z B.z C.z q →
        α ≤ atan2 q.y q.x ∧ atan2 q.y q.x ≤ α + (Real.pi - 2 * spacing l) := by
    intro t ht A B C hp q hq
    obtain ⟨p, hp, e⟩ := section_surface hs ht hp hq
    have := hw p hp (by rw [e])
    rwa [e] at this
  have low : ∀ b : ℝ, (∀ t, 0 < t → OnSurface ts (along o u t) → b ≤ t) →
      new = (ranges[j]?).getD 0 ∨ b ≤ new := by
    intro b hb
    by_cases hc : new = (ranges[j]?).getD 0
    · exact .inl hc
    · right
      obtain ⟨d, d0, rfl, t, ht, A, B, C, hp, hq⟩ := C79_surface_partial h m hm T ranges (fun t ht A B C hp u v hu hv => by
        have su := sec t ht A B C hp u hu
        have sv := sec t ht A B C hp v hv
        refine ⟨hα.trans su.1, ?_⟩
        have g1 := idx_gap h (a := atan2 u.y u.x) (b := atan2 v.y v.x) (by linarith)
        have g2 := idx_gap h (a := atan2 v.y v.x) (b := atan2 u.y u.x) (by linarith)
        unfold idx at g1 g2
        unfold OnePart
        rw [abs_lt]
        constructor <;> omega) e1 hj n1 hc
      obtain ⟨p, hp, e⟩ := section_surface hs ht hp hq
      have : p = along o u d := rigid_inj hr (by rw [e, hB d]; rfl)
      rw [this] at hp
      exact_mod_cast hb d d0 hp
  refine ⟨res, new, e1, n1, ?_, low⟩
  rintro D ⟨⟨D0, hS⟩, hD⟩ hRD ⟨c, hc, hI, hside⟩
  obtain ⟨t, ht, f1, f2, f3⟩ := (soup_pairs hs).1 c hc
  have hp : PosedTriangle T m.points t (T.apply c.1) (T.apply c.2.1) (T.apply c.2.2) := ⟨_, _, _, f1, f2, f3, rfl, rfl, rfl⟩
  have hI' : InsideTriangle (T.apply c.1) (T.apply c.2.1) (T.apply c.2.2) (T.apply (along o u D)) := by
    obtain ⟨a, b, g, q1, q2, q3, q4, q5, q6, q7⟩ := hI
    obtain ⟨r1, r2, r3⟩ := apply_comb T q4 q5 q6 q7
    exact ⟨a, b, g, q1, q2, q3, q4, r1, r2, r3⟩
  obtain ⟨res', new', g1, g2, g3, g4⟩ := C78_visible_partial h m hm T hr hR ranges ht hp ((faces_iff hT ho _ _ _).2 hside) hI' hj
    D0 hRD (hB D) (fun q hq => hα.trans (sec t ht _ _ _ hp q hq).1)
    (fun q r hq hr _ _ => by
      have := sec t ht _ _ _ hp q hq
      have := sec t ht _ _ _ hp r hr
      linarith)
  rw [e1, Except.ok.injEq] at g1
  subst g1
  rw [n1, Option.some.injEq] at g2
  subst g2
  have hge := low D (fun t t0 ht => hD ⟨t0, ht⟩)
  unfold nearer
  split_ifs with h0
  · rw [h0] at hge
    exact le_antisymm g3 (hge.resolve_left g4)
  · rcases n2 with e | ⟨_, e⟩
    · rw [e] at g3 ⊢
      exact (min_eq_left g3).symm
    · have e := e.resolve_left h0
      have := le_antisymm g3 (hge.resolve_left e.ne)
      rw [this] at e ⊢
      exact (min_eq_right e.le).symm

/-- C101, for boxes seen from outside within pi minus two beams, not below the first angle, and beams none of whose components
in the frame of the box is below 1e-9: the scan agrees with the ray test of the box. If the ray test reports a hit within the
maximum range, and the point hit is strictly inside one of the twelve triangles, the beam shows the distance reported, or an
earlier value if that is nearer. If the ray test up to `b` reports no hit, the beam keeps its value or shows at least `b`. -/
theorem C101_box_partial {l : LRF} (h : Fine l) (hR : 0 < l.rangeMax) (lo hi : Vec3) (h1 : lo.x < hi.x) (h2 : lo.y < hi.y)
    (h3 : lo.z < hi.z) (T : Transform3) (hT : Rotation T.R) {α : ℝ} (hα : l.aMin ≤ α)
    (hw : SeenWithin T (InBox lo hi) α (α + (Real.pi - 2 * spacing l)))
    (ranges : List EReal) {j : ℕ} (hj : j < l.numBeams) {o u : Vec3}
    (hB : BeamIn T (beamAngle l.aMin l.aMax l.numBeams j) o u) (ho : ¬ InBox lo hi o)
    (hx : 1e-9 ≤ |u.x|) (hy : 1e-9 ≤ |u.y|) (hz : 1e-9 ≤ |u.z|) {b : ℝ} (hb : 0 < b) (d0 : ℝ) :
    ∃ res new, l.render (Box.new lo hi).mesh T ranges = .ok res ∧ res.ranges[j]? = some new ∧
      (b ≤ l.rangeMax → ((Box.new lo hi).intersectRay (Ray.new o u) 0 b d0).1 = true →
        (∃ c, soup (Box.new lo hi).mesh.points (Box.new lo hi).mesh.tris = some c ∧ ∃ t ∈ c, InsideTriangle t.1 t.2.1 t.2.2
          (along o u ((Box.new lo hi).intersectRay (Ray.new o u) 0 b d0).2)) →
        new = nearer ((ranges[j]?).getD 0) ((Box.new lo hi).intersectRay (Ray.new o u) 0 b d0).2) ∧
      (((Box.new lo hi).intersectRay (Ray.new o u) 0 b d0).1 = false → new = (ranges[j]?).getD 0 ∨ b ≤ new) := by
  obtain ⟨hm, hs⟩ := box_mesh lo hi
  have hp : Proper lo hi := ⟨h1.le, h2.le, h3.le⟩
  have hu := beam_unit hT.1 hB
  obtain ⟨c1, c2⟩ := C26_ray lo hi o u u 0 b d0 hp hu hx hy hz hb
  obtain ⟨res, new, e1, e2, e3, e4⟩ := C101_mesh_partial h hR _ hm _ hs T hT hα
    (fun p hp' hz' => hw p (boxSoup_in hp hp') hz') ranges hj hB
  refine ⟨res, new, e1, e2, fun hbR hhit hin => ?_, fun hmiss => ?_⟩
  · have hl := c2 hhit
    obtain ⟨t, t1, t2, t3⟩ := c1.1 hhit
    obtain ⟨c, hc, k, hk, hin⟩ := hin
    rw [hs, Option.some.injEq] at hc
    subst hc
    generalize ((Box.new lo hi).intersectRay (Ray.new o u) 0 b d0).2 = D at *
    have hD : D ≤ t := hl.2 t3
    have D0 : 0 < D := by
      by_contra hn
      have := along_between hl.1 t3 (not_lt.1 hn) t1.le
      simp only [along, zero_mul, add_zero] at this
      exact ho this
    refine e3 D ⟨⟨D0, k, hk, ?_⟩, fun s hs => hl.2 (boxSoup_in hp hs.2)⟩ (by linarith)
      ⟨k, hk, hin, entry_side h1 h2 h3 D0 (fun s hs => hl.2 hs) hk hin⟩
    obtain ⟨x, y, z, q1, q2, q3, q4, q5, q6, q7⟩ := hin
    exact ⟨x, y, z, q1.le, q2.le, q3.le, q4, Vec3.ext q5 q6 q7⟩
  · refine e4 b fun t t0 ht => ?_
    by_contra hn
    rw [Bool.eq_false_iff, Ne, c1] at hmiss
    exact hmiss ⟨t, t0, not_le.1 hn, boxSoup_in hp ht⟩

/-- A sensor with 17 beams around the full turn, beam 8 pointing along x. Used in the cases below. -/
theorem turn_sensor (R : ℝ) : ∃ l, Fine l ∧ l.aMin = -Real.pi ∧ l.numBeams = 17 ∧ l.rangeMax = R ∧
    spacing l = Real.pi / 8 ∧ beamAngle l.aMin l.aMax l.numBeams 8 = 0 := by
  have hp := Real.pi_pos
  obtain ⟨l, _, h2, h3, h4, h5, h6⟩ := exists_sensor (a := -Real.pi) (b := Real.pi) (R := R) (n := 17)
    (by norm_num) (by linarith) (by linarith) (by linarith) (by norm_num; linarith)
  refine ⟨l, h6, h2, h4, h5, ?_, ?_⟩
  · unfold spacing; rw [h2, h3, h4]; push_cast; norm_num; ring
  · rw [h2, h3, h4]; unfold beamAngle; push_cast; norm_num; ring

/-- A case of C101 with a hit: a cube turned about a skew axis, ten units away. The middle beam enters it at distance 9. -/
example : ∃ l, Fine l ∧ l.rangeMax = 20 ∧
    (Box.new ⟨-1, -1, -1⟩ ⟨1, 1, 1⟩).intersectRay (Ray.new ⟨-7, -29 / 5, -33 / 10⟩ ⟨2 / 3, 2 / 3, 1 / 3⟩) 0 20 0 = (true, 9) ∧
    ∃ res, l.render (Box.new ⟨-1, -1, -1⟩ ⟨1, 1, 1⟩).mesh
      ⟨⟨2 / 3, 2 / 3, 1 / 3, -2 / 3, 1 / 3, 2 / 3, 1 / 3, -2 / 3, 2 / 3⟩, ⟨289 / 30, -8 / 15, 2 / 3⟩⟩ [] = .ok res ∧
      res.ranges[8]? = some 9 := by
  obtain ⟨l, h1, h2, h3, h4, h5, h6⟩ := turn_sensor 20
  have hp := Real.pi_pos
  have hu : UnitAlong ⟨2 / 3, 2 / 3, 1 / 3⟩ ⟨2 / 3, 2 / 3, 1 / 3⟩ := ⟨by norm_num, 1, by norm_num⟩
  obtain ⟨c1, c2⟩ := C26_ray ⟨-1, -1, -1⟩ ⟨1, 1, 1⟩ ⟨-7, -29 / 5, -33 / 10⟩ _ _ 0 20 0 (by norm_num [Proper]) hu
    (by norm_num [abs_of_pos]) (by norm_num [abs_of_pos]) (by norm_num [abs_of_pos]) (by norm_num)
  have c3 := c1.2 ⟨9, by norm_num, by norm_num, by norm_num [InBox, along]⟩
  have c4 := (c2 c3).unique (b := 9) ⟨by norm_num [InBox, along], fun t ht => by
    have := ht.1
    simp only [along] at this
    linarith⟩
  have hres : (Box.new ⟨-1, -1, -1⟩ ⟨1, 1, 1⟩).intersectRay (Ray.new ⟨-7, -29 / 5, -33 / 10⟩ ⟨2 / 3, 2 / 3, 1 / 3⟩) 0 20 0 =
    (true, 9) := Prod.ext c3 c4
  refine ⟨l, h1, h4, hres, ?_⟩
  obtain ⟨res, new, e1, e2, e3, -⟩ := C101_box_partial h1 (by rw [h4]; norm_num) ⟨-1, -1, -1⟩ ⟨1, 1, 1⟩ (by norm_num) (by norm_num)
    (by norm_num) ⟨⟨2 / 3, 2 / 3, 1 / 3, -2 / 3, 1 / 3, 2 / 3, 1 / 3, -2 / 3, 2 / 3⟩, ⟨289 / 30, -8 / 15, 2 / 3⟩⟩
    (by rw [rotation_iff, orth_iff]; norm_num) (α := -(Real.pi / 4)) (by rw [h2]; linarith) (by
      intro p hp' _
      obtain ⟨p1, p2, p3, p4, p5, p6⟩ := hp'
      simp only at p1 p2 p3 p4 p5 p6
      have := abs_le.1 (atan2_cone (x := 2 / 3 * p.x + 2 / 3 * p.y + 1 / 3 * p.z + 289 / 30)
        (y := -2 / 3 * p.x + 1 / 3 * p.y + 2 / 3 * p.z + -8 / 15) (by linarith) (by
          rw [abs_le]
          constructor <;> linarith))
      rw [h5]
      exact ⟨this.1, this.2.trans (by linarith)⟩) [] (j := 8) (by rw [h3]; norm_num)
    (o := ⟨-7, -29 / 5, -33 / 10⟩) (u := ⟨2 / 3, 2 / 3, 1 / 3⟩) (by
      intro t
      rw [h6]
      ext <;> norm_num [Transform3.apply, Mat3.mulVec, along] <;> ring) (by norm_num [InBox])
    (by norm_num [abs_of_pos]) (by norm_num [abs_of_pos]) (by norm_num [abs_of_pos]) (b := 20) (by norm_num) 0
  rw [hres] at e3
  refine ⟨res, e1, ?_⟩
  rw [e2, e3 (by rw [h4]) rfl ⟨_, (box_mesh _ _).2, _, by
    simp only [boxSoup, List.mem_cons]
    exact .inr (.inr (.inr (.inr (.inl rfl)))), 1 / 20, 7 / 20, 3 / 5, by norm_num, by norm_num, by norm_num, by norm_num,
      by norm_num [along], by norm_num [along], by norm_num [along]⟩]
  simp only [nearer, List.getElem?_nil, Option.getD_none, if_true]
  rfl

/-- C101 is false for beams along an axis of the box: a sensor at the origin has the box from (3,-1,-1) to (4,2,1) in front of
it. Its middle beam shows 3, but the ray test of the box reports no hit (see C27). -/
theorem C101_axis_wrong : ∃ l, Fine l ∧ l.rangeMax = 20 ∧ beamAngle l.aMin l.aMax l.numBeams 8 = 0 ∧
    BeamIn Transform3.identity 0 ⟨0, 0, 0⟩ ⟨1, 0, 0⟩ ∧
    (∃ res, l.render (Box.new ⟨3, -1, -1⟩ ⟨4, 2, 1⟩).mesh Transform3.identity [] = .ok res ∧ res.ranges[8]? = some 3) ∧
    ∀ b > 0, ((Box.new ⟨3, -1, -1⟩ ⟨4, 2, 1⟩).intersectRay (Ray.new ⟨0, 0, 0⟩ ⟨1, 0, 0⟩) 0 b 0).1 = false := by
  obtain ⟨l, h1, h2, h3, h4, h5, h6⟩ := turn_sensor 20
  have hp := Real.pi_pos
  have ai : ∀ p, Transform3.identity.apply p = p := fun p => by
    ext <;> simp [Transform3.apply, Mat3.mulVec, Transform3.identity, Mat3.identity]
  have hB : BeamIn Transform3.identity 0 ⟨0, 0, 0⟩ ⟨1, 0, 0⟩ := fun t => by
    rw [ai]
    ext <;> simp [along]
  obtain ⟨hm, hs⟩ := box_mesh ⟨3, -1, -1⟩ ⟨4, 2, 1⟩
  have hP : Proper ⟨3, -1, -1⟩ ⟨4, 2, 1⟩ := by norm_num [Proper]
  refine ⟨l, h1, h4, h6, hB, ?_, fun b hb => ?_⟩
  · obtain ⟨res, new, e1, e2, e3, -⟩ := C101_mesh_partial h1 (by rw [h4]; norm_num) _ hm _ hs Transform3.identity
      (by rw [rotation_iff, orth_iff]; norm_num [Transform3.identity, Mat3.identity]) (α := -(Real.pi / 4))
      (by rw [h2]; linarith) (by
        intro p hp' _
        obtain ⟨p1, p2, p3, p4, p5, p6⟩ := boxSoup_in hP hp'
        simp only at p1 p2 p3 p4 p5 p6
        rw [ai, h5]
        have := abs_le.1 (atan2_cone (x := p.x) (y := p.y) (by linarith) (by rw [abs_le]; constructor <;> linarith))
        exact ⟨this.1, this.2.trans (by linarith)⟩) [] (j := 8) (by rw [h3]; norm_num) (by rw [h6]; exact hB)
    have hc : ((⟨3, -1, -1⟩, ⟨3, -1, 1⟩, ⟨3, 2, -1⟩) : Vec3 × Vec3 × Vec3) ∈ boxSoup ⟨3, -1, -1⟩ ⟨4, 2, 1⟩ := by
      simp [boxSoup]
    refine ⟨res, e1, ?_⟩
    rw [e2, e3 3 ⟨⟨by norm_num, _, hc, 1 / 6, 1 / 2, 1 / 3, by norm_num, by norm_num, by norm_num, by norm_num,
        by norm_num [along]⟩, fun t ht => ?_⟩ (by rw [h4]; norm_num)
      ⟨_, hc, ⟨1 / 6, 1 / 2, 1 / 3, by norm_num, by norm_num, by norm_num, by norm_num, by norm_num [along],
        by norm_num [along], by norm_num [along]⟩, by norm_num [side]⟩]
    · simp only [nearer, List.getElem?_nil, Option.getD_none, if_true]
      rfl
    · have := (boxSoup_in hP ht.2).1
      simpa [along] using this
  · rw [← Bool.not_eq_true, C27_axis_parallel_partial _ _ ⟨0, 0, 0⟩ ⟨1, 0, 0⟩ ⟨1, 0, 0⟩ 0 b 0 hP
      ⟨by norm_num, 1, by norm_num⟩ (by norm_num) hb]
    simp

end Geo
