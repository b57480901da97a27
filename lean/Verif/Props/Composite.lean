import Verif.Lemmas.Composite
import Verif.Props.Math

/-!
# Property theorems C31-C34: composites
-/

namespace Geo
open Spec

/-! ## C31 -/

/-- C31: whatever the parts are (as long as their queries do not fail), a composite of rigidly posed
parts contains a point exactly if the point is in the bounding box and is the image of a point some
part contains; likewise for the sphere test. -/
theorem C31_contains (l : List (ShapeObj × Transform3)) (hm : ∀ x ∈ l, GoodMesh x.1.mesh)
    (hr : ∀ x ∈ l, Rigid x.2) (ht : ∀ x ∈ l, ∀ q R, (∃ b, x.1.contains q = .ok b) ∧
      (∃ b, x.1.sphere q R = .ok b)) :
    ∃ c, Composite.build l = .ok c ∧ ∀ p R,
      (∃ b, c.contains p = .ok b ∧ (b = true ↔ InBox c.bb.lo c.bb.hi p ∧
        ∃ x ∈ l, Posed x.2 (fun q => x.1.contains q = .ok true) p)) ∧
      (∃ b, c.intersectSphere p R = .ok b ∧ (b = true ↔ c.bb.intersectSphere p R = true ∧
        ∃ x ∈ l, Posed x.2 (fun q => x.1.sphere q R = .ok true) p)) := by
  obtain ⟨c, hc, -⟩ := Composite.build_from l hm Composite.new
  refine ⟨c, hc, fun p R => ?_⟩
  obtain ⟨-, -, hsh, hbb⟩ := Composite.bb_eq hm hc
  have hin : c.bb.contains p = true ↔ InBox c.bb.lo c.bb.hi p := by
    rw [hbb]; exact (C23_contains _ _ p).1
  have hex : ∀ P : ShapeObj × Transform3 → Vec3 → Prop,
      (∃ a ∈ c.shapes, ∃ y ∈ l, a = (y.1, y.2.inverse) ∧ P y (a.2.apply p)) ↔
        ∃ x ∈ l, Posed x.2 (P x) p := by
    intro P
    constructor
    · rintro ⟨a, -, y, hy, rfl, hP⟩
      exact ⟨y, hy, _, (C02_rigid_inverse (hr y hy)).2.2.2.1 p, hP⟩
    · rintro ⟨x, hx, q, rfl, hP⟩
      refine ⟨(x.1, x.2.inverse), by rw [hsh]; exact List.mem_map.2 ⟨x, hx, rfl⟩, x, hx, rfl, ?_⟩
      simp only
      rw [(C02_rigid_inverse (hr x hx)).2.2.1]; exact hP
  constructor
  · obtain ⟨b, hb, hbi⟩ := Composite.anyOf_total
      (fun s : ShapeObj × Transform3 => s.1.contains (s.2.apply p)) c.shapes (by
        intro a ha
        rw [hsh] at ha
        obtain ⟨y, hy, rfl⟩ := List.mem_map.1 ha
        exact (ht y hy _ 0).1)
    unfold Composite.contains
    by_cases h : c.bb.contains p = true
    · refine ⟨b, by simp [h, hb], ?_⟩
      rw [hbi, ← hin, ← hex (fun x q => x.1.contains q = .ok true)]
      simp only [h, true_and]
      constructor
      · rintro ⟨a, ha, h'⟩
        have ha' := ha
        rw [hsh] at ha'
        obtain ⟨y, hy, rfl⟩ := List.mem_map.1 ha'
        exact ⟨_, ha, y, hy, rfl, h'⟩
      · rintro ⟨a, ha, y, hy, rfl, h'⟩
        exact ⟨_, ha, h'⟩
    · refine ⟨false, by simp [h], ?_⟩
      rw [← hin]; simp [h]
  · obtain ⟨b, hb, hbi⟩ := Composite.anyOf_total
      (fun s : ShapeObj × Transform3 => s.1.sphere (s.2.apply p) R) c.shapes (by
        intro a ha
        rw [hsh] at ha
        obtain ⟨y, hy, rfl⟩ := List.mem_map.1 ha
        exact (ht y hy _ R).2)
    unfold Composite.intersectSphere
    by_cases h : c.bb.intersectSphere p R = true
    · refine ⟨b, by simp [h, hb], ?_⟩
      rw [hbi, ← hex (fun x q => x.1.sphere q R = .ok true)]
      simp only [h, true_and]
      constructor
      · rintro ⟨a, ha, h'⟩
        have ha' := ha
        rw [hsh] at ha'
        obtain ⟨y, hy, rfl⟩ := List.mem_map.1 ha'
        exact ⟨_, ha, y, hy, rfl, h'⟩
      · rintro ⟨a, ha, y, hy, rfl, h'⟩
        exact ⟨_, ha, h'⟩
    · exact ⟨false, by simp [h], by simp [h]⟩

/-- C31: the bounding-box pre-check never changes the answer when no part reports anything outside the
convex hull of its mesh. -/
theorem C31_lossless (l : List (ShapeObj × Transform3)) (hw : ∀ x ∈ l, WithinMesh x.1)
    (hr : ∀ x ∈ l, Rigid x.2) :
    ∃ c, Composite.build l = .ok c ∧ ∀ p R,
      (∃ b, c.contains p = .ok b ∧
        (b = true ↔ ∃ x ∈ l, Posed x.2 (fun q => x.1.contains q = .ok true) p)) ∧
      (∃ b, c.intersectSphere p R = .ok b ∧
        (b = true ↔ ∃ x ∈ l, Posed x.2 (fun q => x.1.sphere q R = .ok true) p)) := by
  obtain ⟨c, hc, h⟩ := C31_contains l (fun x hx => (hw x hx).good) hr (fun x hx => (hw x hx).total)
  refine ⟨c, hc, fun p R => ?_⟩
  obtain ⟨hin, -, -, hbb⟩ := Composite.bb_eq (fun x hx => (hw x hx).good) hc
  have hull : ∀ x ∈ l, ∀ q, InHull (cornersOf (trianglesOf x.1.mesh)) q →
      InBox c.bb.lo c.bb.hi (x.2.apply q) := by
    intro x hx q hq
    apply (hq.apply x.2).inBox
    intro y hy
    apply hin
    unfold posedTriangles
    simp only [cornersOf, List.mem_flatMap]
    obtain ⟨z, hz, rfl⟩ := List.mem_map.1 hy
    simp only [cornersOf, List.mem_flatMap] at hz
    obtain ⟨t, ht, hz⟩ := hz
    refine ⟨_, ⟨x, hx, List.mem_map.2 ⟨t, ht, rfl⟩⟩, ?_⟩
    simp only [List.mem_cons, List.not_mem_nil, or_false] at hz ⊢
    rcases hz with rfl | rfl | rfl <;> simp
  obtain ⟨⟨b, hb, hbi⟩, b', hb', hbi'⟩ := h p R
  refine ⟨⟨b, hb, ?_⟩, b', hb', ?_⟩
  · rw [hbi]
    refine ⟨fun h => h.2, fun h => ⟨?_, h⟩⟩
    obtain ⟨x, hx, q, rfl, hq⟩ := h
    exact hull x hx q ((hw x hx).contains q hq)
  · rw [hbi']
    refine ⟨fun h => h.2, fun h => ⟨?_, h⟩⟩
    obtain ⟨x, hx, q, rfl, hq⟩ := h
    rw [hbb]
    rcases lt_or_ge 0 R with hR | hR
    · obtain ⟨y, hy, hd⟩ := (hw x hx).sphere q R hR hq
      have hy' := hull x hx y hy
      rw [(C24_sphere _ _ _ ⟨hy'.1.trans hy'.2.1, hy'.2.2.1.trans hy'.2.2.2.1,
        hy'.2.2.2.2.1.trans hy'.2.2.2.2.2⟩ R).1 hR]
      exact ⟨_, hy', by rw [(C02_rigid_inverse (hr x hx)).2.2.2.2.2.1]; exact hd⟩
    · have hy' := hull x hx q ((hw x hx).sphere0 q R hR hq)
      rw [(C24_sphere _ _ _ ⟨hy'.1.trans hy'.2.1, hy'.2.2.1.trans hy'.2.2.2.1,
        hy'.2.2.2.2.1.trans hy'.2.2.2.2.2⟩ R).2 hR]
      exact hy'

/-- C31: boxes qualify, so a composite of rigidly posed boxes contains exactly the union of the boxes and
its sphere test is exact. -/
theorem C31_boxes (l : List ((Vec3 × Vec3) × Transform3)) (hp : ∀ x ∈ l, Proper x.1.1 x.1.2)
    (hr : ∀ x ∈ l, Rigid x.2) :
    ∃ c, Composite.build (l.map fun x => ((Box.new x.1.1 x.1.2).toObj, x.2)) = .ok c ∧ ∀ p,
      (∃ b, c.contains p = .ok b ∧ (b = true ↔ ∃ x ∈ l, Posed x.2 (InBox x.1.1 x.1.2) p)) ∧
      (∀ R, 0 < R → ∃ b, c.intersectSphere p R = .ok b ∧
        (b = true ↔ ∃ x ∈ l, ∃ q, Posed x.2 (InBox x.1.1 x.1.2) q ∧ Spec.dist p q ≤ R)) := by
  obtain ⟨c, hc, h⟩ := C31_lossless (l.map fun x => ((Box.new x.1.1 x.1.2).toObj, x.2)) (by
      intro y hy
      obtain ⟨x, hx, rfl⟩ := List.mem_map.1 hy
      exact box_within (hp x hx)) (by
      intro y hy
      obtain ⟨x, hx, rfl⟩ := List.mem_map.1 hy
      exact hr x hx)
  refine ⟨c, hc, fun p => ⟨?_, fun R hR => ?_⟩⟩
  · obtain ⟨b, hb, hbi⟩ := (h p 0).1
    refine ⟨b, hb, ?_⟩
    rw [hbi]
    simp only [List.mem_map, Prod.exists, Posed]
    constructor
    · rintro ⟨o, T, ⟨lh, T', T'', hx, he⟩, q, rfl, hq⟩
      simp only [Prod.mk.injEq] at he
      obtain ⟨rfl, rfl⟩ := he
      exact ⟨_, _, _, hx, q, rfl, (C23_contains lh T' q).1.1 (by simpa [Box.toObj] using hq)⟩
    · rintro ⟨lo, hi, T, hx, q, rfl, hq⟩
      exact ⟨_, _, ⟨lo, hi, T, hx, rfl⟩, q, rfl, by
        simpa [Box.toObj] using (C23_contains lo hi q).1.2 hq⟩
  · obtain ⟨b, hb, hbi⟩ := (h p R).2
    refine ⟨b, hb, ?_⟩
    rw [hbi]
    simp only [List.mem_map, Prod.exists, Posed]
    constructor
    · rintro ⟨o, T, ⟨lo, hi, T', hx, he⟩, q, rfl, hq⟩
      simp only [Prod.mk.injEq] at he
      obtain ⟨rfl, rfl⟩ := he
      simp only [Box.toObj, Except.ok.injEq] at hq
      obtain ⟨x, hx', hd⟩ := ((C24_sphere lo hi q (hp _ hx) R).1 hR).1 hq
      exact ⟨_, _, _, hx, T'.apply x, ⟨x, rfl, hx'⟩, by
        rw [(C02_rigid_inverse (hr _ hx)).2.2.2.2.2.1]; exact hd⟩
    · rintro ⟨lo, hi, T, hx, q, ⟨x, rfl, hx'⟩, hd⟩
      refine ⟨_, _, ⟨lo, hi, T, hx, rfl⟩, T.inverse.apply p, (C02_rigid_inverse (hr _ hx)).2.2.2.1 p, ?_⟩
      simp only [Box.toObj, Except.ok.injEq]
      rw [(C24_sphere lo hi _ (hp _ hx) R).1 hR]
      refine ⟨x, hx', ?_⟩
      rw [← (C02_rigid_inverse (hr _ hx)).2.2.2.2.2.1, (C02_rigid_inverse (hr _ hx)).2.2.2.1]
      exact hd

/-- C31: composites nest: a composite of parts that report nothing outside their meshes is itself such a
part. -/
theorem C31_nested (l : List (ShapeObj × Transform3)) (hw : ∀ x ∈ l, WithinMesh x.1)
    (hr : ∀ x ∈ l, Rigid x.2) (hn : (l.map fun x => x.1.mesh.points.length).sum ≤ 2 ^ 32) :
    ∃ c, Composite.build l = .ok c ∧ WithinMesh c.toObj := by
  obtain ⟨c, hc, h⟩ := C31_lossless l hw hr
  refine ⟨c, hc, ?_⟩
  obtain ⟨hgood, htri⟩ := Composite.mesh_eq (fun x hx => (hw x hx).good) hn hc
  have hull : ∀ x ∈ l, ∀ q, InHull (cornersOf (trianglesOf x.1.mesh)) q →
      InHull (cornersOf (trianglesOf c.mesh)) (x.2.apply q) := by
    intro x hx q hq
    refine (hq.apply x.2).mono ?_
    intro y hy
    rw [htri]
    exact Composite.mem_posed hx hy
  constructor
  · exact hgood
  · intro q hq
    obtain ⟨b, hb, hbi⟩ := (h q 0).1
    have : b = true := by have := hb.symm.trans hq; simpa using this
    obtain ⟨x, hx, y, rfl, hy⟩ := hbi.1 this
    exact hull x hx y ((hw x hx).contains y hy)
  · intro q R hR hq
    obtain ⟨b, hb, hbi⟩ := (h q R).2
    have : b = true := by have := hb.symm.trans hq; simpa using this
    obtain ⟨x, hx, y, rfl, hy⟩ := hbi.1 this
    obtain ⟨z, hz, hd⟩ := (hw x hx).sphere y R hR hy
    exact ⟨_, hull x hx z hz, by rw [(C02_rigid_inverse (hr x hx)).2.2.2.2.2.1]; exact hd⟩
  · intro q R hR hq
    obtain ⟨b, hb, hbi⟩ := (h q R).2
    have : b = true := by have := hb.symm.trans hq; simpa using this
    obtain ⟨x, hx, y, rfl, hy⟩ := hbi.1 this
    exact hull x hx y ((hw x hx).sphere0 y R hR hy)
  · intro q R
    obtain ⟨⟨b, hb, -⟩, b', hb', -⟩ := h q R
    exact ⟨⟨b, hb⟩, b', hb'⟩

/-- C31 case: two unit cubes, one of them rotated by 90 degrees about z and moved: the point
(-0.5, 0.5, 5.5) is in the second one only. -/
example : ∃ c, Composite.build [((Box.new ⟨0, 0, 0⟩ ⟨1, 1, 1⟩).toObj, Transform3.identity),
      ((Box.new ⟨0, 0, 0⟩ ⟨1, 1, 1⟩).toObj, ⟨⟨0, -1, 0, 1, 0, 0, 0, 0, 1⟩, ⟨0, 0, 5⟩⟩)] = .ok c ∧
    c.contains ⟨-0.5, 0.5, 5.5⟩ = .ok true ∧ c.contains ⟨0.5, 0.5, 5.5⟩ = .ok false := by
  have hrot : Rigid ⟨⟨0, -1, 0, 1, 0, 0, 0, 0, 1⟩, ⟨0, 0, 5⟩⟩ := by
    unfold Rigid; rw [orth_iff]; norm_num
  have hid : Rigid Transform3.identity := by
    unfold Rigid; rw [orth_iff]; norm_num [Transform3.identity, Mat3.identity]
  obtain ⟨c, hc, h⟩ := C31_boxes [((⟨0, 0, 0⟩, ⟨1, 1, 1⟩), Transform3.identity),
      ((⟨0, 0, 0⟩, ⟨1, 1, 1⟩), ⟨⟨0, -1, 0, 1, 0, 0, 0, 0, 1⟩, ⟨0, 0, 5⟩⟩)] (by
        intro x hx; simp only [List.mem_cons, List.not_mem_nil, or_false] at hx
        rcases hx with rfl | rfl <;> norm_num [Proper]) (by
        intro x hx; simp only [List.mem_cons, List.not_mem_nil, or_false] at hx
        rcases hx with rfl | rfl
        · exact hid
        · exact hrot)
  refine ⟨c, hc, ?_, ?_⟩
  · obtain ⟨b, hb, hi⟩ := (h ⟨-0.5, 0.5, 5.5⟩).1
    rw [hb, hi.2 ⟨_, List.mem_cons_of_mem _ (List.mem_singleton.2 rfl), ⟨0.5, 0.5, 0.5⟩, ?_, ?_⟩]
    · ext <;> norm_num [Transform3.apply, Mat3.mulVec]
    · norm_num [InBox]
  · obtain ⟨b, hb, hi⟩ := (h ⟨0.5, 0.5, 5.5⟩).1
    rw [hb]
    cases b
    · rfl
    · exfalso
      obtain ⟨x, hx, q, he, hq⟩ := hi.1 rfl
      simp only [List.mem_cons, List.not_mem_nil, or_false] at hx
      obtain ⟨q1, q2, q3, q4, q5, q6⟩ := hq
      have ex := congrArg Vec3.x he
      have ez := congrArg Vec3.z he
      rcases hx with rfl | rfl
      · simp [Transform3.identity, Mat3.identity, Transform3.apply, Mat3.mulVec] at ez q6
        norm_num at ez; linarith
      · simp [Transform3.apply, Mat3.mulVec] at ex q3
        norm_num at ex; linarith

/-! ## C32 -/

/-- C32: when the bounding box is hit, a composite is hit exactly if some part has a candidate below the
upper bound, and the distance is the least candidate; when it is missed, there is no hit. The result is
therefore independent of the insertion order. -/
theorem C32_nearest (l : List (ShapeObj × Transform3)) (hm : ∀ x ∈ l, GoodMesh x.1.mesh) (r : Ray)
    (t0 t1 d0 : ℝ) (E : ShapeObj × Transform3 → Option ℝ)
    (hE : ∀ x ∈ l, Candidate x.1
      (Ray.new (x.2.inverse.apply r.origin) (x.2.inverse.R.mulVec r.direction)) t0 (E x)) :
    ∃ c res, Composite.build l = .ok c ∧ c.intersectRay r t0 t1 d0 = .ok res ∧
      (res.1 = true ↔ (c.bb.intersectRay r t0 t1 d0).1 = true ∧ ∃ x ∈ l, ∃ d, E x = some d ∧ d < t1) ∧
      (res.1 = true → IsLeast {d | ∃ x ∈ l, E x = some d} res.2) := by
  obtain ⟨c, hc, -⟩ := Composite.build_from l hm Composite.new
  obtain ⟨-, -, hsh, -⟩ := Composite.bb_eq hm hc
  -- candidates indexed by the stored parts
  obtain ⟨res, h1, h2, h3, h4, h5, h6⟩ := Composite.rayLoop_map r t0 l E hE false t1
  rw [← hsh] at h1
  by_cases hb : (c.bb.intersectRay r t0 t1 d0).1 = true
  · cases hr : res.1 with
    | false =>
      refine ⟨c, (false, (c.bb.intersectRay r t0 t1 d0).2), hc, ?_, ?_, by simp⟩
      · unfold Composite.intersectRay
        simp [hb, h1, hr, bind, Except.bind, pure, Except.pure]
      · rw [hr] at h2
        simp only [hb, true_and]
        simpa using h2
    | true =>
      refine ⟨c, (true, res.2), hc, ?_, ?_, ?_⟩
      · unfold Composite.intersectRay
        simp [hb, h1, hr, bind, Except.bind, pure, Except.pure]
      · rw [hr] at h2
        simp only [hb, true_and]
        simpa using h2
      · intro _
        have := h6 hr rfl
        refine ⟨h5.resolve_left (by linarith), ?_⟩
        rintro d ⟨x, hx, hd⟩
        exact h4 x hx d hd
  · refine ⟨c, (false, (c.bb.intersectRay r t0 t1 d0).2), hc, ?_, by simp [hb], by simp⟩
    unfold Composite.intersectRay
    simp [hb]

/-- C32: insertion order does not matter, for parts that satisfy the ray-cast contract. -/
theorem C32_order (l l' : List (ShapeObj × Transform3)) (hp : l.Perm l')
    (hm : ∀ x ∈ l, GoodMesh x.1.mesh) (r : Ray) (t0 t1 d0 : ℝ)
    (hE : ∀ x ∈ l, ∃ e, Candidate x.1
      (Ray.new (x.2.inverse.apply r.origin) (x.2.inverse.R.mulVec r.direction)) t0 e) :
    ∃ c c' res res', Composite.build l = .ok c ∧ Composite.build l' = .ok c' ∧
      c.intersectRay r t0 t1 d0 = .ok res ∧ c'.intersectRay r t0 t1 d0 = .ok res' ∧
      res.1 = res'.1 ∧ (res.1 = true → res.2 = res'.2) := by
  classical
  choose! E hE using hE
  have hmem : ∀ x, x ∈ l' ↔ x ∈ l := fun x => hp.mem_iff.symm
  obtain ⟨c, res, h1, h2, h3, h4⟩ := C32_nearest l hm r t0 t1 d0 E hE
  obtain ⟨c', res', g1, g2, g3, g4⟩ := C32_nearest l' (fun x hx => hm x ((hmem x).1 hx)) r t0 t1 d0 E
    (fun x hx => hE x ((hmem x).1 hx))
  have hbb : (c.bb.lo, c.bb.hi) = (c'.bb.lo, c'.bb.hi) := Composite.bb_perm hp hm h1 g1
  simp only [Prod.mk.injEq] at hbb
  have hray : c.bb.intersectRay r t0 t1 d0 = c'.bb.intersectRay r t0 t1 d0 := by
    unfold Box.intersectRay Box.bound
    rw [hbb.1, hbb.2]
  have hflag : res.1 = true ↔ res'.1 = true := by
    rw [h3, g3, hray]; simp only [hmem]
  refine ⟨c, c', res, res', h1, g1, h2, g2, by rw [Bool.eq_iff_iff]; exact hflag, fun ht => ?_⟩
  have a := h4 ht
  have b := g4 (hflag.1 ht)
  simp only [hmem] at b
  exact a.unique b

/-- C32: boxes. For a ray that is not parallel to a face of any part or to a coordinate plane, the
composite is hit exactly if the ray is inside some part somewhere in the open range, and the distance
is the smallest parameter at which it is inside a part that is hit in the range. -/
theorem C32_boxes (l : List ((Vec3 × Vec3) × Transform3)) (hp : ∀ x ∈ l, Proper x.1.1 x.1.2)
    (hr : ∀ x ∈ l, Rigid x.2) (o d u : Vec3) (hu : UnitAlong d u)
    (hw : 1e-9 ≤ |u.x| ∧ 1e-9 ≤ |u.y| ∧ 1e-9 ≤ |u.z|)
    (hl : ∀ x ∈ l, ∀ w, x.2.R.mulVec w = u → 1e-9 ≤ |w.x| ∧ 1e-9 ≤ |w.y| ∧ 1e-9 ≤ |w.z|)
    (t0 t1 d0 : ℝ) (ht : t0 < t1) :
    ∃ c res, Composite.build (l.map fun x => ((Box.new x.1.1 x.1.2).toObj, x.2)) = .ok c ∧
      c.intersectRay (Ray.new o d) t0 t1 d0 = .ok res ∧
      (res.1 = true ↔ ∃ x ∈ l, ∃ t, t0 < t ∧ t < t1 ∧ Posed x.2 (InBox x.1.1 x.1.2) (along o u t)) ∧
      (res.1 = true → IsLeast {s | ∃ x ∈ l,
        (∃ t, t0 < t ∧ t < t1 ∧ Posed x.2 (InBox x.1.1 x.1.2) (along o u t)) ∧
        Posed x.2 (InBox x.1.1 x.1.2) (along o u s)} res.2) := by
  classical
  set L := l.map fun x => ((Box.new x.1.1 x.1.2).toObj, x.2) with hL
  have hgood : ∀ y ∈ L, GoodMesh y.1.mesh := by
    intro y hy
    obtain ⟨x, hx, rfl⟩ := List.mem_map.1 hy
    exact box_good _ _
  have hdir : (Ray.new o d).direction = u := unitAlong_normalized hu
  have horig : (Ray.new o d).origin = o := rfl
  -- description of each part's candidate
  have cand : ∀ x : (Vec3 × Vec3) × Transform3, x ∈ l →
      ∃ e, Candidate (Box.new x.1.1 x.1.2).toObj
        (Ray.new (x.2.inverse.apply o) (x.2.inverse.R.mulVec u)) t0 e ∧
      (∀ t1, t0 < t1 → ((∃ s, e = some s ∧ s < t1) ↔
        ∃ t, t0 < t ∧ t < t1 ∧ Posed x.2 (InBox x.1.1 x.1.2) (along o u t))) ∧
      (∀ s, e = some s → IsLeast {t | Posed x.2 (InBox x.1.1 x.1.2) (along o u t)} s) := by
    intro x hx
    obtain ⟨e, he⟩ := box_candidate (Box.new x.1.1 x.1.2)
      (Ray.new (x.2.inverse.apply o) (x.2.inverse.R.mulVec u)) t0
    have hR := hr x hx
    have hrot : x.2.R.mulVec (x.2.inverse.R.mulVec u) = u := Composite.rot_cancel hR u
    have hunit : UnitAlong (x.2.inverse.R.mulVec u) (x.2.inverse.R.mulVec u) :=
      ⟨by rw [Composite.rot_unit hR]; exact hu.1, 1, by norm_num, by ring, by ring, by ring⟩
    obtain ⟨w1, w2, w3⟩ := hl x hx _ hrot
    have hposed : ∀ t, Posed x.2 (InBox x.1.1 x.1.2) (along o u t) ↔
        InBox x.1.1 x.1.2 (along (x.2.inverse.apply o) (x.2.inverse.R.mulVec u) t) := by
      intro t
      have e1 : along (x.2.inverse.apply o) (x.2.inverse.R.mulVec u) t =
          x.2.inverse.apply (along o u t) := by
        ext <;> simp [along, Transform3.apply, Mat3.mulVec] <;> ring
      rw [e1]
      constructor
      · rintro ⟨q, hq, hb⟩
        rw [← hq, (C02_rigid_inverse hR).2.2.1]; exact hb
      · intro h
        exact ⟨_, (C02_rigid_inverse hR).2.2.2.1 _, h⟩
    have key : ∀ t1, t0 < t1 → ((∃ s, e = some s ∧ s < t1) ↔
        ∃ t, t0 < t ∧ t < t1 ∧ Posed x.2 (InBox x.1.1 x.1.2) (along o u t)) := by
      intro t1 ht1
      obtain ⟨res, h1, h2, -⟩ := he t1 0
      rw [← h2]
      have := (C26_ray x.1.1 x.1.2 (x.2.inverse.apply o) _ _ t0 t1 0 (hp x hx) hunit w1 w2 w3 ht1).1
      simp only [Box.toObj, Except.ok.injEq] at h1
      rw [← h1, this]
      simp only [hposed]
    refine ⟨e, he, key, ?_⟩
    intro s hs
    obtain ⟨res, h1, h2, h3⟩ := he (max t0 s + 1) 0
    have hlt : t0 < max t0 s + 1 := by linarith [le_max_left t0 s]
    have hres : res.1 = true := h2.2 ⟨s, hs, by linarith [le_max_right t0 s]⟩
    have h4 := (C26_ray x.1.1 x.1.2 (x.2.inverse.apply o) _ _ t0 (max t0 s + 1) 0 (hp x hx) hunit w1 w2 w3 hlt).2
    simp only [Box.toObj, Except.ok.injEq] at h1
    rw [← h1] at h2 h3 hres
    have h5 := h4 hres
    have h6 := h3 hres
    rw [hs] at h6
    simp only [Option.some.injEq] at h6
    rw [← h6] at h5
    simp only [hposed]
    exact h5
  -- one candidate function for the mapped list
  have candL : ∀ y ∈ L, ∃ e, Candidate y.1
        (Ray.new (y.2.inverse.apply o) (y.2.inverse.R.mulVec u)) t0 e := by
    intro y hy
    obtain ⟨x, hx, rfl⟩ := List.mem_map.1 hy
    obtain ⟨e, he, -⟩ := cand x hx
    exact ⟨e, he⟩
  choose! E hE using candL
  obtain ⟨c, res, hc, hres, hiff, hleast⟩ := C32_nearest L hgood (Ray.new o d) t0 t1 d0 E
    (by rw [hdir, horig]; exact hE)
  have same : ∀ x ∈ l, ∀ e, Candidate (Box.new x.1.1 x.1.2).toObj
        (Ray.new (x.2.inverse.apply o) (x.2.inverse.R.mulVec u)) t0 e →
        E ((Box.new x.1.1 x.1.2).toObj, x.2) = e := fun x hx e he =>
    Composite.candidate_unique (hE _ (List.mem_map.2 ⟨x, hx, rfl⟩)) he
  have hany : (∃ y ∈ L, ∃ s, E y = some s ∧ s < t1) ↔
      ∃ x ∈ l, ∃ t, t0 < t ∧ t < t1 ∧ Posed x.2 (InBox x.1.1 x.1.2) (along o u t) := by
    constructor
    · rintro ⟨y, hy, s, hs, hlt⟩
      obtain ⟨x, hx, rfl⟩ := List.mem_map.1 hy
      obtain ⟨e, he, hk, -⟩ := cand x hx
      rw [same x hx e he] at hs
      exact ⟨x, hx, (hk t1 ht).1 ⟨s, hs, hlt⟩⟩
    · rintro ⟨x, hx, h⟩
      obtain ⟨e, he, hk, -⟩ := cand x hx
      obtain ⟨s, hs, hlt⟩ := (hk t1 ht).2 h
      exact ⟨_, List.mem_map.2 ⟨x, hx, rfl⟩, s, by rw [same x hx e he]; exact hs, hlt⟩
  refine ⟨c, res, hc, hres, ?_, ?_⟩
  · rw [hiff, hany]
    refine ⟨fun h => h.2, fun h => ⟨?_, h⟩⟩
    -- the bounding box is hit too
    obtain ⟨x, hx, t, ht0, htt, q, hq, hqb⟩ := h
    obtain ⟨hin, -, -, hbb⟩ := Composite.bb_eq hgood hc
    have hmem : InBox c.bb.lo c.bb.hi (along o u t) := by
      rw [← hq]
      have h1 := (box_hull hqb).apply x.2
      apply h1.inBox
      intro y hy
      exact hin y (Composite.mem_posed (List.mem_map.2 ⟨x, hx, rfl⟩) hy)
    have hprop : Proper c.bb.lo c.bb.hi := ⟨hmem.1.trans hmem.2.1, hmem.2.2.1.trans hmem.2.2.2.1,
      hmem.2.2.2.2.1.trans hmem.2.2.2.2.2⟩
    rw [hbb, (C26_ray _ _ o d u t0 t1 d0 hprop hu hw.1 hw.2.1 hw.2.2 ht).1]
    exact ⟨t, ht0, htt, hmem⟩
  · intro h
    obtain ⟨⟨y, hy, hyE⟩, hlow⟩ := hleast h
    obtain ⟨-, y', hy', s', hs', hlt'⟩ := hiff.1 h
    have hlt : res.2 < t1 := lt_of_le_of_lt (hlow ⟨y', hy', hs'⟩) hlt'
    constructor
    · obtain ⟨x, hx, rfl⟩ := List.mem_map.1 hy
      obtain ⟨e, he, hk, hk2⟩ := cand x hx
      rw [same x hx e he] at hyE
      exact ⟨x, hx, (hk t1 ht).1 ⟨_, hyE, hlt⟩, (hk2 _ hyE).1⟩
    · rintro s ⟨x, hx, hin, hs⟩
      obtain ⟨e, he, hk, hk2⟩ := cand x hx
      obtain ⟨s', hs', -⟩ := (hk t1 ht).2 hin
      have h1 : res.2 ≤ s' := hlow ⟨_, List.mem_map.2 ⟨x, hx, rfl⟩, by rw [same x hx e he]; exact hs'⟩
      exact h1.trans ((hk2 s' hs').2 hs)

/-- C32 case: a diagonal ray through two unit cubes in a row meets the hypotheses, and is inside the first
cube at parameter 0.1. -/
example : ∃ c res, Composite.build ([((⟨0, 0, 0⟩, ⟨1, 1, 1⟩), Transform3.identity),
      ((⟨2, 2, 2⟩, ⟨3, 3, 3⟩), Transform3.identity)].map
        fun x => ((Box.new x.1.1 x.1.2).toObj, x.2)) = .ok c ∧
    c.intersectRay (Ray.new ⟨0, 0, 0⟩ ⟨1, 2, 2⟩) 0 100 0 = .ok res ∧ res.1 = true := by
  have hid : Rigid Transform3.identity := by
    unfold Rigid; rw [orth_iff]; norm_num [Transform3.identity, Mat3.identity]
  obtain ⟨c, res, hc, hr, hi, -⟩ := C32_boxes [((⟨0, 0, 0⟩, ⟨1, 1, 1⟩), Transform3.identity),
      ((⟨2, 2, 2⟩, ⟨3, 3, 3⟩), Transform3.identity)] (by
        intro x hx; simp only [List.mem_cons, List.not_mem_nil, or_false] at hx
        rcases hx with rfl | rfl <;> norm_num [Proper]) (by
        intro x hx; simp only [List.mem_cons, List.not_mem_nil, or_false] at hx
        rcases hx with rfl | rfl <;> exact hid) ⟨0, 0, 0⟩ ⟨1, 2, 2⟩ ⟨1 / 3, 2 / 3, 2 / 3⟩
      ⟨by norm_num, 3, by norm_num, by norm_num⟩ (by norm_num [abs_of_pos]) (by
        intro x hx w hw
        have : w = ⟨1 / 3, 2 / 3, 2 / 3⟩ := by
          rw [← hw]
          simp only [List.mem_cons, List.not_mem_nil, or_false] at hx
          rcases hx with rfl | rfl <;>
            (ext <;> simp [Transform3.identity, Mat3.identity, Mat3.mulVec])
        rw [this]; norm_num [abs_of_pos]) 0 100 0 (by norm_num)
  refine ⟨c, res, hc, hr, hi.2 ⟨_, List.mem_cons_self, 0.1, by norm_num, by norm_num, ?_⟩⟩
  refine ⟨⟨0.1 / 3, 0.2 / 3, 0.2 / 3⟩, ?_, ?_⟩
  · ext <;> norm_num [Transform3.apply, Transform3.identity, Mat3.identity, Mat3.mulVec, along]
  · norm_num [InBox]

/-- C32: a plain mesh part makes every ray that reaches the bounding box (and is not stopped by a fault
of an earlier part) throw, because `Shape::intersect(Ray)` is not implemented. -/
theorem C32_mesh_part_throws (c : Composite) (s : Shape) (T : Transform3)
    (rest : List (ShapeObj × Transform3)) (hc : c.shapes = (s.toObj, T) :: rest) (r : Ray)
    (t0 t1 d0 : ℝ) (hb : (c.bb.intersectRay r t0 t1 d0).1 = true) :
    c.intersectRay r t0 t1 d0 = .error .exception := by
  unfold Composite.intersectRay
  simp [hb, hc, Composite.rayLoop, Shape.toObj, Shape.intersectRay, bind, Except.bind]

/-! ## C33 -/

/-- C33: mesh, radius and bounding box of a composite describe the moved triangles of all parts. -/
theorem C33_aggregates (l : List (ShapeObj × Transform3)) (hm : ∀ x ∈ l, GoodMesh x.1.mesh)
    (hn : (l.map fun x => x.1.mesh.points.length).sum ≤ 2 ^ 32) :
    ∃ c, Composite.build l = .ok c ∧
      soup c.mesh.points c.mesh.tris = some (posedTriangles l) ∧
      IsRadius (cornersOf (posedTriangles l)) c.getMaxRadius ∧
      (∀ p ∈ cornersOf (posedTriangles l), InBox c.getBoundingBox.lo c.getBoundingBox.hi p) ∧
      (cornersOf (posedTriangles l) ≠ [] →
        (∀ p ∈ cornersOf (posedTriangles l), |p.x| ≤ 1e10 ∧ |p.y| ≤ 1e10 ∧ |p.z| ≤ 1e10) →
        ∀ lo hi, (∀ p ∈ cornersOf (posedTriangles l), InBox lo hi p) →
          InBox lo hi c.getBoundingBox.lo ∧ InBox lo hi c.getBoundingBox.hi) := by
  obtain ⟨c, hc, -, -, hR, -, -⟩ := Composite.build_from l hm Composite.new
  obtain ⟨hin, hb, -, -⟩ := Composite.bb_eq hm hc
  obtain ⟨hgood, htri⟩ := Composite.mesh_eq hm hn hc
  refine ⟨c, hc, by rw [← htri]; exact (good_soup hgood).1, ?_, hin, ?_⟩
  · obtain ⟨h0, h1, h2⟩ := Composite.lenMax_spec (cornersOf (posedTriangles l)) Composite.new.maxRadius
    rw [← hR] at h0 h1 h2
    have hl : ∀ p : Vec3, Spec.dist p ⟨0, 0, 0⟩ = p.length := fun p => Mesh.dist_origin p
    refine ⟨fun p hp => by rw [hl]; exact h1 p hp, ?_⟩
    rcases h2 with h2 | ⟨p, hp, h2⟩
    · have h2 : c.maxRadius = 0 := h2
      cases hcs : cornersOf (posedTriangles l) with
      | nil => right; exact ⟨rfl, h2⟩
      | cons p ps =>
        left
        refine ⟨p, by simp, ?_⟩
        rw [hl]
        have := h1 p (by rw [hcs]; simp)
        have h3 : 0 ≤ p.length := Real.sqrt_nonneg _
        show p.length = c.maxRadius
        linarith
    · left; exact ⟨p, hp, by rw [hl]; exact h2⟩
  · intro hne hbd lo hi hlh
    have hne' : l ≠ [] := by rintro rfl; simp [posedTriangles, cornersOf] at hne
    have e := hb hne'
    obtain ⟨p, hp⟩ := List.exists_mem_of_ne_nil _ hne
    obtain ⟨q1, q2, q3, q4, q5, q6⟩ := hin p hp
    -- intersect the candidate box with the coordinate limits
    obtain ⟨b1, b2, b3⟩ := hbd p hp
    have hp' := hlh p hp
    obtain ⟨-, -, h3⟩ := boundsOf_spec (cornersOf (posedTriangles l)) (.all 1e10) (.all (-1e10))
    rw [← e] at h3
    have h4 := h3 ⟨min lo.x 1e10, min lo.y 1e10, min lo.z 1e10⟩
      ⟨max hi.x (-1e10), max hi.y (-1e10), max hi.z (-1e10)⟩ (by
        intro q hq
        obtain ⟨a1, a2, a3, a4, a5, a6⟩ := hlh q hq
        exact ⟨(min_le_left _ _).trans a1, a2.trans (le_max_left _ _), (min_le_left _ _).trans a3,
          a4.trans (le_max_left _ _), (min_le_left _ _).trans a5, a6.trans (le_max_left _ _)⟩)
      ⟨min_le_right _ _, min_le_right _ _, min_le_right _ _, le_max_right _ _, le_max_right _ _,
        le_max_right _ _⟩
    obtain ⟨l1, l2, l3, l4, l5, l6⟩ := h4
    obtain ⟨p1, p2, p3, p4, p5, p6⟩ := hp'
    rw [abs_le] at b1 b2 b3
    simp only at l1 l2 l3 l4 l5 l6
    rw [min_eq_left (p1.trans b1.2)] at l1
    rw [min_eq_left (p3.trans b2.2)] at l2
    rw [min_eq_left (p5.trans b3.2)] at l3
    rw [max_eq_left (b1.1.trans p2)] at l4
    rw [max_eq_left (b2.1.trans p4)] at l5
    rw [max_eq_left (b3.1.trans p6)] at l6
    show InBox lo hi c.bb.lo ∧ InBox lo hi c.bb.hi
    exact ⟨⟨l1, (q1.trans q2).trans l4, l2, (q3.trans q4).trans l5, l3, (q5.trans q6).trans l6⟩,
      ⟨l1.trans (q1.trans q2), l4, l2.trans (q3.trans q4), l5, l3.trans (q5.trans q6), l6⟩⟩

/-- C33: `getShapes` returns the parts in the order in which they were added; each comes with a pose that takes a point of the
composite back to the part, if the pose of the part is rigid. -/
theorem C33_parts (l : List (ShapeObj × Transform3)) (hm : ∀ x ∈ l, GoodMesh x.1.mesh) :
    ∃ c, Composite.build l = .ok c ∧ c.getShapes.map Prod.fst = l.map Prod.fst ∧
      ∀ (i : ℕ) s T, l[i]? = some (s, T) → Rigid T → ∃ S : Transform3, c.getShapes[i]? = some (s, S) ∧ ∀ p, S.apply (T.apply p) = p := by
  obtain ⟨c, hc, hs, -⟩ := Composite.build_from l hm Composite.new
  have hs : c.getShapes = l.map fun x => (x.1, x.2.inverse) := hs
  refine ⟨c, hc, by rw [hs, List.map_map]; rfl, fun i s T hi hT => ⟨T.inverse, by rw [hs, List.getElem?_map, hi]; rfl, fun p => ?_⟩⟩
  exact (C02_rigid_inverse hT).2.2.1 p

example : ∃ c, Composite.build [((Box.new ⟨0, 0, 0⟩ ⟨1, 2, 2⟩).toObj, ⟨Mat3.identity, ⟨10, 0, 0⟩⟩),
      ((Box.new ⟨3, 0, 0⟩ ⟨4, 1, 1⟩).toObj, ⟨Mat3.identity, ⟨0, 0, 5⟩⟩)] = .ok c ∧
    c.getShapes.map Prod.fst = [(Box.new ⟨0, 0, 0⟩ ⟨1, 2, 2⟩).toObj, (Box.new ⟨3, 0, 0⟩ ⟨4, 1, 1⟩).toObj] := by
  obtain ⟨c, h1, h2, -⟩ := C33_parts [((Box.new ⟨0, 0, 0⟩ ⟨1, 2, 2⟩).toObj, ⟨Mat3.identity, ⟨10, 0, 0⟩⟩),
      ((Box.new ⟨3, 0, 0⟩ ⟨4, 1, 1⟩).toObj, ⟨Mat3.identity, ⟨0, 0, 5⟩⟩)] (by
        intro x hx
        simp only [List.mem_cons, List.not_mem_nil, or_false] at hx
        rcases hx with rfl | rfl <;> exact box_good _ _)
  exact ⟨c, h1, h2⟩

/-- C33: `setMesh` on a composite always throws. -/
theorem C33_setMesh_throws (c : Composite) (m : Mesh) : c.setMesh m = .error .exception := rfl

/-- C33 case: a box moved by (10, 0, 0) meets the hypotheses and its far corner (11, 2, 2) gives the
radius. -/
example : ∃ c, Composite.build [((Box.new ⟨0, 0, 0⟩ ⟨1, 2, 2⟩).toObj,
      ⟨Mat3.identity, ⟨10, 0, 0⟩⟩)] = .ok c ∧ (⟨11, 2, 2⟩ : Vec3).length ≤ c.getMaxRadius := by
  obtain ⟨c, hc, -, hr, -⟩ := C33_aggregates [((Box.new ⟨0, 0, 0⟩ ⟨1, 2, 2⟩).toObj,
      ⟨Mat3.identity, ⟨10, 0, 0⟩⟩)] (by simp; exact box_good _ _) (by
      have : (Box.new ⟨0, 0, 0⟩ ⟨1, 2, 2⟩).toObj.mesh.points = corners8 ⟨0, 0, 0⟩ ⟨1, 2, 2⟩ :=
        (generateMesh_points ⟨_, _, Mesh.new⟩).2.2
      simp only [List.map_cons, List.map_nil, List.sum_cons, List.sum_nil, this]
      simp [corners8])
  refine ⟨c, hc, ?_⟩
  have := hr.1 ⟨11, 2, 2⟩ (by
    have h1 : (⟨11, 2, 2⟩ : Vec3) = Transform3.apply ⟨Mat3.identity, ⟨10, 0, 0⟩⟩ ⟨1, 2, 2⟩ := by
      ext <;> norm_num [Transform3.apply, Mat3.mulVec, Mat3.identity]
    rw [h1]
    refine Composite.mem_posed (List.mem_singleton.2 rfl) ?_
    apply List.mem_map_of_mem
    rw [show (Box.new ⟨0, 0, 0⟩ ⟨1, 2, 2⟩).toObj.mesh = (Box.new ⟨0, 0, 0⟩ ⟨1, 2, 2⟩).mesh from rfl,
      box_trianglesOf]
    simp [corners8])
  rwa [Mesh.dist_origin] at this

/-! ## C34 -/

/-- C34: a composite without parts, or whose parts all answer no, contains and meets nothing. -/
theorem C34_empty_partial (p : Vec3) (R : ℝ) (r : Ray) (t0 t1 d0 : ℝ) :
    Composite.new.contains p = .ok false ∧ Composite.new.intersectSphere p R = .ok false ∧
    (∃ d, Composite.new.intersectRay r t0 t1 d0 = .ok (false, d)) ∧
    Composite.new.getMaxRadius = 0 ∧ Composite.new.toObj.mesh.tris = [] := by
  have hs : Composite.new.shapes = [] := rfl
  refine ⟨?_, ?_, ?_, rfl, rfl⟩
  · unfold Composite.contains
    rw [hs]
    simp [anyOf]
  · unfold Composite.intersectSphere
    rw [hs]
    simp [anyOf]
  · unfold Composite.intersectRay
    rw [hs]
    generalize Composite.new.bb.intersectRay r t0 t1 d0 = x
    cases hx : x.1
    · exact ⟨x.2, by simp [hx]⟩
    · exact ⟨x.2, by simp [hx, Composite.rayLoop, bind, Except.bind, pure, Except.pure]⟩

/-- C34: but its bounding box is not empty: it is the cube of half side 1e10. -/
theorem C34_bounding_box_wrong :
    Composite.new.getBoundingBox.lo = ⟨-1e10, -1e10, -1e10⟩ ∧
    Composite.new.getBoundingBox.hi = ⟨1e10, 1e10, 1e10⟩ ∧
    InBox Composite.new.getBoundingBox.lo Composite.new.getBoundingBox.hi ⟨0, 0, 0⟩ := by
  have h1 : Composite.new.getBoundingBox.lo = ⟨-1e10, -1e10, -1e10⟩ := rfl
  have h2 : Composite.new.getBoundingBox.hi = ⟨1e10, 1e10, 1e10⟩ := by
    show (⟨-(-1e10), -(-1e10), -(-1e10)⟩ : Vec3) = _
    ext <;> norm_num
  refine ⟨h1, h2, ?_⟩
  rw [h1, h2]
  norm_num [InBox]

end Geo
