import Verif.Lemmas.NanComposite
import Verif.Lemmas.Composite
import Verif.Lemmas.OctreeMesh
import Verif.Lemmas.Shapes
import Verif.Lemmas.Inside
import Verif.Props.Octree

/-!
# Property theorems C116: the distance that a composite reports is a number
-/

namespace Geo

open Spec

/-- C116 for shapes built without octrees: composites within composites answer as if the variable for the distance had held a
number, and the distance of a hit is a number. Full claim: for all shapes, which `C116_nan_wrong` refutes. -/
theorem C116_writes_partial (p : NanPart) (h : WithoutOctrees p) : Writes p := by
  induction h with
  | box b =>
    intro r t0 t1 d0 d
    exact Box.rayN_agrees b r t0 t1 d0 d
  | heightMap h =>
    intro r t0 t1 d0 d
    exact HNode.rayN_agrees h.root r t0 t1 d0 d
  | mesh s =>
    intro r t0 t1 d0 d
    exact rfl
  | composite l c hb _ ih =>
    intro r t0 t1 d0 d
    have hs := Composite.build_shapes _ _ _ hb
    simp only [Composite.new, List.nil_append, List.map_map, Function.comp_def] at hs
    show Agrees (c.intersectRay r t0 t1 d0) (Composite.intersectRayN c.bb l r t0 (.fin t1) d)
    unfold Composite.intersectRay Composite.intersectRayN
    obtain ⟨h1, -⟩ := Box.rayN_agrees c.bb r t0 t1 d0 d
    rw [hs]
    generalize c.bb.intersectRay r t0 t1 d0 = a at h1 ⊢
    generalize c.bb.intersectRayN r t0 (.fin t1) d = b at h1 ⊢
    obtain ⟨a1, a2⟩ := a
    obtain ⟨b1, b2⟩ := b
    dsimp only at h1 ⊢
    subst h1
    cases a1
    · simp [Agrees]
    · simp only [Bool.not_true, Bool.false_eq_true, if_false]
      have hl : ∀ x ∈ l.map fun x => (x.1, x.2.inverse), Writes x.1 := by
        intro x hx
        obtain ⟨y, hy, rfl⟩ := List.mem_map.1 hx
        exact ih y hy
      have := Composite.rayLoopN_agrees r t0 _ hl false t1
      simp only [List.map_map, Function.comp_def] at this
      rcases this with ⟨e, q1, q2⟩ | ⟨hit, md, q1, q2⟩
      · rw [q1, q2]; exact rfl
      · rw [q1, q2]
        simp only [bind, Except.bind]
        cases hit <;> simp [Agrees, pure, Except.pure]

/-- C116 case: a box within a composite within a composite. -/
example : ∃ c c', Composite.build [((Box.new ⟨0, 0, 0⟩ ⟨1, 2, 3⟩).toObj, Transform3.identity)] = .ok c ∧
    Composite.build [(c.toObj, Transform3.identity)] = .ok c' ∧
    WithoutOctrees (c'.toNan [(c.toNan [((Box.new ⟨0, 0, 0⟩ ⟨1, 2, 3⟩).toNan, Transform3.identity)], Transform3.identity)]) := by
  have h1 : ∀ x ∈ [((Box.new ⟨0, 0, 0⟩ ⟨1, 2, 3⟩).toObj, Transform3.identity)], GoodMesh x.1.mesh := by
    intro x hx
    rw [List.mem_singleton.1 hx]
    exact box_good _ _
  obtain ⟨c, hc, -⟩ := Composite.build_from _ h1 Composite.new
  have hcm := Composite.mesh_eq h1 (by simpa [Box.toObj] using box_small ⟨0, 0, 0⟩ ⟨1, 2, 3⟩) hc
  have h2 : ∀ x ∈ [(c.toObj, Transform3.identity)], GoodMesh x.1.mesh := by
    intro x hx
    rw [List.mem_singleton.1 hx]
    exact hcm.1
  obtain ⟨c', hc', -⟩ := Composite.build_from _ h2 Composite.new
  refine ⟨c, c', hc, hc', .composite _ _ hc' fun x hx => ?_⟩
  rw [List.mem_singleton.1 hx]
  refine .composite _ _ hc fun y hy => ?_
  rw [List.mem_singleton.1 hy]
  exact .box _

/-- C116 for octrees: the answer is the same whatever the variable held, and what is in it afterwards is either what was there
before or a number that does not depend on it. -/
theorem C116_octree (t : Octree) (r : Ray) (t0 t1 : ℝ) :
    (∃ e, (∀ d0, t.intersectRay r t0 t1 d0 = .error e) ∧ ∀ d, t.intersectRayN r t0 (.fin t1) d = .error e) ∨
    (∃ h, (∀ d0, t.intersectRay r t0 t1 d0 = .ok (h, d0)) ∧ ∀ d, t.intersectRayN r t0 (.fin t1) d = .ok (h, d)) ∨
    (∃ h x, (∀ d0, t.intersectRay r t0 t1 d0 = .ok (h, x)) ∧ ∀ d, t.intersectRayN r t0 (.fin t1) d = .ok (h, .fin x)) :=
  Octree.rayN_cases t r t0 t1

/-- C116: once the distance is NaN, no shape with a ray query is hit any more. -/
theorem C116_deaf (p : NanPart) (h : WithRays p) (r : Ray) (t0 : ℝ) (d : Fl) :
    ∃ d', p.ray r t0 .nan d = .ok (false, d') := by
  cases h with
  | box b => exact ⟨_, congrArg Except.ok (Prod.ext (Box.rayN_nan b r t0 d) rfl)⟩
  | heightMap h => exact ⟨_, congrArg Except.ok (Prod.ext (HNode.rayN_nan h.root r t0 d) rfl)⟩
  | octree t m => exact ⟨d, Octree.rayN_nan t r t0 d⟩
  | composite l c _ _ =>
    refine ⟨(c.bb.intersectRayN r t0 .nan d).2, ?_⟩
    show Composite.intersectRayN c.bb l r t0 .nan d = _
    unfold Composite.intersectRayN
    have := Box.rayN_nan c.bb r t0 d
    generalize c.bb.intersectRayN r t0 .nan d = b at this ⊢
    obtain ⟨b1, b2⟩ := b
    dsimp only at this ⊢
    subst this
    rfl

/-- C116: parts that come after the one with the unwritten distance are lost, wherever they are. -/
theorem C116_lost (r : Ray) (t0 : ℝ) (l : List (NanPart × Transform3)) (h : ∀ x ∈ l, WithRays x.1) (hit : Bool) :
    Composite.rayLoopN r t0 l hit .nan = .ok (hit, .nan) := by
  induction l with
  | nil => rfl
  | cons x l ih =>
    obtain ⟨p, pose⟩ := x
    obtain ⟨d', hd⟩ := C116_deaf p (h (p, pose) (by simp)) (Ray.new (pose.apply r.origin) (pose.R.mulVec r.direction)) t0 .nan
    simp only [Composite.rayLoopN, hd, bind, Except.bind]
    exact ih fun x hx => h x (by simp [hx])

/-- C116 case: a box and an octree are parts with a ray query. -/
example : ∃ t, Octree.new 1 1 = .ok t ∧
    ∀ x ∈ [((Box.new ⟨0, 0, 0⟩ ⟨1, 2, 3⟩).toNan, Transform3.identity), (t.toNan Mesh.new, Transform3.identity)], WithRays x.1 := by
  obtain ⟨t, h1, -⟩ := tree1
  refine ⟨t, h1, fun x hx => ?_⟩
  simp only [List.mem_cons, List.not_mem_nil, or_false] at hx
  rcases hx with rfl | rfl
  · exact .box _
  · exact .octree _ _

/-- C116 fails: a composite of an octree and a box nearer to the ray reports the hit at distance NaN if the octree was added first,
and the distance of the box if the box was. -/
theorem C116_nan_wrong : ∃ t0 t t' m c c', Octree.new 1 1 = .ok t0 ∧ t0.run [.add ⟨0, 0, 0⟩] = .ok t ∧ t.getMesh = .ok (t', m) ∧
    let b := Box.new ⟨-0.9, -1.5, -1.5⟩ ⟨-0.6, -1.2, -1.2⟩
    let l := [(t.toNan m, Transform3.identity), (b.toNan, Transform3.identity)]
    Composite.build (l.map fun x => (x.1.obj, x.2)) = .ok c ∧
    Composite.build (l.reverse.map fun x => (x.1.obj, x.2)) = .ok c' ∧
    Composite.intersectRayN c.bb l (Ray.new ⟨-1, -2, -2⟩ ⟨1, 2, 2⟩) 0 (.fin 10) .nan = .ok (true, .nan) ∧
    Composite.intersectRayN c'.bb l.reverse (Ray.new ⟨-1, -2, -2⟩ ⟨1, 2, 2⟩) 0 (.fin 10) .nan = .ok (true, .fin 0.75) := by
  obtain ⟨t0, t, h1, h2, h3, h4, h5, h6, h7, h8⟩ := single (size := 1) (r := 1) 0 (by norm_num) (by norm_num)
    (by simp) (by norm_num) ⟨0, 0, 0⟩
  have hu := unit122.1
  have hx := unit122.2.1
  have hy := unit122.2.2.1
  have hz := unit122.2.2.2
  -- the mesh of the octree
  have hcount : t.getCubes.length ≤ 2 ^ 29 := by
    obtain ⟨cells, c1, c2, c3⟩ := Octree.good_shows h3
    rw [c3, List.length_map]
    have : cells.length ≤ 1 := by
      rcases cells with _ | ⟨a, _ | ⟨b, l⟩⟩
      · simp
      · simp
      · have ha := (h8 a).1 ((c2 a).1 (by simp))
        have hb := (h8 b).1 ((c2 b).1 (by simp))
        simp [ha, hb] at c1
    omega
  obtain ⟨t', m, ts, hm, -, hsoup, -, -⟩ := C41_mesh_partial 1 t h5 (by norm_num) hcount
  have hgood : GoodMesh m := by
    obtain ⟨k, hg, hok⟩ := Octree.reach_mesh h5
    have hf := Octree.getMesh_fresh hg hok hm
    refine ⟨?_, Mesh.valid_of_soup hsoup⟩
    obtain ⟨ops, h3⟩ : Reachable (Octree.fresh t.getCubes) :=
      Shapes.foldl_reachable (fun m b (h : Reachable m) => h.add) _ _ ⟨[], rfl⟩
    exact ⟨ops ++ [.filter], by rw [run_append h3]; simp [Mesh.run, Mesh.step, hf, bind, Except.bind]⟩
  -- what the octree and the box answer
  have hoct : ∀ d0, t.intersectRay (Ray.new ⟨-1, -2, -2⟩ ⟨1, 2, 2⟩) 0 10 d0 = .ok (true, d0) := by
    obtain ⟨s0, s, g1, g2, g3⟩ := C39_unwritten_wrong
    rw [h1] at g1
    have := Except.ok.inj g1
    subst this
    rw [h2] at g2
    have := Except.ok.inj g2
    subst this
    exact g3
  have hoctN : t.intersectRayN (Ray.new ⟨-1, -2, -2⟩ ⟨1, 2, 2⟩) 0 (.fin 10) .nan = .ok (true, .nan) := by
    rcases C116_octree t (Ray.new ⟨-1, -2, -2⟩ ⟨1, 2, 2⟩) 0 10 with ⟨e, a, -⟩ | ⟨h, a, b⟩ | ⟨h, x, a, -⟩
    · have := (a 0).symm.trans (hoct 0)
      simp at this
    · have := (a 0).symm.trans (hoct 0)
      simp only [Except.ok.injEq, Prod.mk.injEq, and_true] at this
      rw [b, this]
    · have q1 := (a 0).symm.trans (hoct 0)
      have q2 := (a 1).symm.trans (hoct 1)
      simp only [Except.ok.injEq, Prod.mk.injEq] at q1 q2
      have := q1.2.symm.trans q2.2
      norm_num at this
  have hmiss : t.intersectRayN (Ray.new ⟨-1, -2, -2⟩ ⟨1, 2, 2⟩) 0 (.fin 0.75) .nan = .ok (false, .nan) := by
    have hb : ((Box.new t.offset t.max).intersectRay (Ray.new ⟨-1, -2, -2⟩ ⟨1, 2, 2⟩) 0 0.75 0).1 = false := by
      rw [← Bool.not_eq_true, (box_hit h3 hu unit122.2 (o := ⟨-1, -2, -2⟩) (t0 := 0) (t1 := 0.75) (by norm_num)).1]
      rintro ⟨s, s1, s2, s3⟩
      rw [h3.off, h3.max] at s3
      simp only [InBox, along] at s3
      linarith [s3.1]
    have hc : ∀ d0, t.intersectRay (Ray.new ⟨-1, -2, -2⟩ ⟨1, 2, 2⟩) 0 0.75 d0 = .ok (false, d0) := by
      intro d0; unfold Octree.intersectRay; simp [hb]
    rcases C116_octree t (Ray.new ⟨-1, -2, -2⟩ ⟨1, 2, 2⟩) 0 0.75 with ⟨e, a, -⟩ | ⟨h, a, b⟩ | ⟨h, x, a, -⟩
    · have := (a 0).symm.trans (hc 0)
      simp at this
    · have := (a 0).symm.trans (hc 0)
      simp only [Except.ok.injEq, Prod.mk.injEq, and_true] at this
      rw [b, this]
    · have q1 := (a 0).symm.trans (hc 0)
      have q2 := (a 1).symm.trans (hc 1)
      simp only [Except.ok.injEq, Prod.mk.injEq] at q1 q2
      have := q1.2.symm.trans q2.2
      norm_num at this
  have hbox : (Box.new ⟨-0.9, -1.5, -1.5⟩ ⟨-0.6, -1.2, -1.2⟩).intersectRayN (Ray.new ⟨-1, -2, -2⟩ ⟨1, 2, 2⟩) 0 (.fin 10) .nan =
      (true, .fin 0.75) := by
    obtain ⟨b1, b2⟩ := C26_ray ⟨-0.9, -1.5, -1.5⟩ ⟨-0.6, -1.2, -1.2⟩ ⟨-1, -2, -2⟩ ⟨1, 2, 2⟩ _ 0 10 0 (by norm_num [Proper]) hu hx hy hz
      (by norm_num)
    have hit := b1.2 ⟨1, by norm_num, by norm_num, by norm_num [InBox, along]⟩
    have hd : ((Box.new ⟨-0.9, -1.5, -1.5⟩ ⟨-0.6, -1.2, -1.2⟩).intersectRay (Ray.new ⟨-1, -2, -2⟩ ⟨1, 2, 2⟩) 0 10 0).2 = 0.75 := by
      refine (b2 hit).unique ⟨by norm_num [InBox, along], ?_⟩
      intro t ht
      simp only [Set.mem_ofPred_eq, InBox, along] at ht
      have := ht.2.2.1
      norm_num at this ⊢
      linarith
    obtain ⟨q1, q2⟩ := Box.rayN_agrees (Box.new ⟨-0.9, -1.5, -1.5⟩ ⟨-0.6, -1.2, -1.2⟩) (Ray.new ⟨-1, -2, -2⟩ ⟨1, 2, 2⟩) 0 10 0 .nan
    exact Prod.ext (by rw [← q1]; exact hit) (by rw [q2 hit, hd])
  -- rays in the frames of the parts
  have hray : Ray.new (Transform3.identity.inverse.apply (Ray.new ⟨-1, -2, -2⟩ ⟨1, 2, 2⟩).origin)
      (Transform3.identity.inverse.R.mulVec (Ray.new ⟨-1, -2, -2⟩ ⟨1, 2, 2⟩).direction) = Ray.new ⟨-1, -2, -2⟩ ⟨1, 2, 2⟩ := by
    have n1 := unitAlong_normalized hu
    have n2 : (⟨1 / 3, 2 / 3, 2 / 3⟩ : Vec3).normalized = ⟨1 / 3, 2 / 3, 2 / 3⟩ := unitAlong_normalized ⟨by norm_num, 1, by norm_num⟩
    have o1 : Transform3.identity.inverse.apply (Ray.new ⟨-1, -2, -2⟩ ⟨1, 2, 2⟩).origin = ⟨-1, -2, -2⟩ := by
      ext <;> simp [Transform3.identity, Transform3.inverse, Transform3.apply, Mat3.identity, Mat3.mulVec, Mat3.transpose, Ray.new]
    have o2 : Transform3.identity.inverse.R.mulVec (Ray.new ⟨-1, -2, -2⟩ ⟨1, 2, 2⟩).direction = ⟨1 / 3, 2 / 3, 2 / 3⟩ := by
      have : (Ray.new ⟨-1, -2, -2⟩ ⟨1, 2, 2⟩).direction = ⟨1 / 3, 2 / 3, 2 / 3⟩ := n1
      rw [this]
      ext <;> simp [Transform3.identity, Transform3.inverse, Mat3.identity, Mat3.mulVec, Mat3.transpose]
    rw [o1, o2]
    unfold Ray.new
    rw [n1, n2]
  -- the bounding boxes
  have hbb : ∀ l c, (∀ x ∈ l, GoodMesh x.1.mesh) → Composite.build l = .ok c →
      ((Box.new ⟨-0.9, -1.5, -1.5⟩ ⟨-0.6, -1.2, -1.2⟩).toObj, Transform3.identity) ∈ l →
      ∃ d, c.bb.intersectRayN (Ray.new ⟨-1, -2, -2⟩ ⟨1, 2, 2⟩) 0 (.fin 10) .nan = (true, d) := by
    intro l c hl hc hmem
    obtain ⟨hin, -, -, he⟩ := Composite.bb_eq hl hc
    have corner : ∀ v ∈ corners8 ⟨-0.9, -1.5, -1.5⟩ ⟨-0.6, -1.2, -1.2⟩, InBox c.bb.lo c.bb.hi v := by
      intro v hv
      apply hin
      have hv' := (box_trianglesOf ⟨-0.9, -1.5, -1.5⟩ ⟨-0.6, -1.2, -1.2⟩ v).2 hv
      simp only [cornersOf, List.mem_flatMap] at hv'
      obtain ⟨t, ht, hv'⟩ := hv'
      have hid : ∀ w, Transform3.identity.apply w = w := by
        intro w; ext <;> simp [Transform3.identity, Transform3.apply, Mat3.identity, Mat3.mulVec]
      unfold posedTriangles
      simp only [cornersOf, List.mem_flatMap]
      refine ⟨_, ⟨_, hmem, List.mem_map.2 ⟨t, ht, rfl⟩⟩, ?_⟩
      simpa [hid] using hv'
    have q1 := corner ⟨-0.9, -1.5, -1.5⟩ (by simp [corners8])
    have q2 := corner ⟨-0.6, -1.2, -1.2⟩ (by simp [corners8])
    obtain ⟨b1, -⟩ := C26_ray c.bb.lo c.bb.hi ⟨-1, -2, -2⟩ ⟨1, 2, 2⟩ _ 0 10 0
      ⟨q1.1.trans q1.2.1, q1.2.2.1.trans q1.2.2.2.1, q1.2.2.2.2.1.trans q1.2.2.2.2.2⟩ hu hx hy hz (by norm_num)
    rw [← he] at b1
    have hit := b1.2 ⟨1, by norm_num, by norm_num, by
      simp only [InBox, along] at q1 q2 ⊢
      norm_num at q1 q2 ⊢
      refine ⟨?_, ?_, ?_, ?_, ?_, ?_⟩ <;> linarith [q1.1, q1.2.2.1, q1.2.2.2.2.1, q2.2.1, q2.2.2.2.1, q2.2.2.2.2.2]⟩
    obtain ⟨w1, -⟩ := Box.rayN_agrees c.bb (Ray.new ⟨-1, -2, -2⟩ ⟨1, 2, 2⟩) 0 10 0 .nan
    exact ⟨_, Prod.ext (by rw [← w1]; exact hit) rfl⟩
  have hl1 : ∀ x ∈ [((t.toNan m).obj, Transform3.identity),
      ((Box.new ⟨-0.9, -1.5, -1.5⟩ ⟨-0.6, -1.2, -1.2⟩).toObj, Transform3.identity)], GoodMesh x.1.mesh := by
    intro x hx
    simp only [List.mem_cons, List.not_mem_nil, or_false] at hx
    rcases hx with rfl | rfl
    · exact hgood
    · exact box_good _ _
  have hl2 : ∀ x ∈ [((Box.new ⟨-0.9, -1.5, -1.5⟩ ⟨-0.6, -1.2, -1.2⟩).toObj, Transform3.identity),
      ((t.toNan m).obj, Transform3.identity)], GoodMesh x.1.mesh := by
    intro x hx
    exact hl1 x (by simp only [List.mem_cons, List.not_mem_nil, or_false] at hx ⊢; tauto)
  obtain ⟨c, hc, -⟩ := Composite.build_from _ hl1 Composite.new
  obtain ⟨c', hc', -⟩ := Composite.build_from _ hl2 Composite.new
  refine ⟨t0, t, t', m, c, c', h1, h2, hm, hc, hc', ?_, ?_⟩
  · obtain ⟨d, hd⟩ := hbb _ c hl1 hc (by simp)
    unfold Composite.intersectRayN
    rw [hd]
    simp only [List.map_cons, List.map_nil, Composite.rayLoopN, hray, Octree.toNan, Box.toNan, bind, Except.bind, hoctN, if_true,
      pure, Except.pure, Bool.not_true, Bool.false_eq_true, if_false, Box.rayN_nan]
  · obtain ⟨d, hd⟩ := hbb _ c' hl2 hc' (by simp)
    unfold Composite.intersectRayN
    rw [hd]
    simp only [List.reverse_cons, List.reverse_nil, List.nil_append, List.cons_append, List.map_cons, List.map_nil,
      Composite.rayLoopN, hray, Octree.toNan, Box.toNan, bind, Except.bind, hbox, hmiss, if_true, pure, Except.pure, Bool.not_true,
      Bool.false_eq_true, if_false]

end Geo
