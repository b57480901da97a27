import Verif.Props.Composite

/-!
# The tests test/test_box.cpp and test/test_composite_shape.cpp of the repository, for the model

Every assertion of the two files as a statement about the model, in the order of the files.
-/

namespace Geo.Tests

/-- The box of the tests, test/box_test.h:9. -/
noncomputable def box : Box := Box.new ⟨-0.5, -0.5, -0.5⟩ ⟨0.5, 0.5, 0.5⟩

/-- `min`, test/box_test.h:9. -/
noncomputable def pMin : Vec3 := ⟨-0.5, -0.5, -0.5⟩

/-- `max`, test/box_test.h:9. -/
noncomputable def pMax : Vec3 := ⟨0.5, 0.5, 0.5⟩

/-- `origin`, test/box_test.h:9. -/
noncomputable def origin : Vec3 := ⟨0, 0, 0⟩

/-- `side_center`, test/box_test.h:11. -/
noncomputable def sideCenter : Vec3 := ⟨0, 0, 0.5⟩

/-- `side_center_triangle`, test/box_test.h:12. -/
noncomputable def sideCenterTriangle : Vec3 := ⟨0, 0.25, 0.5⟩

/-- `side_center_close`, test/box_test.h:13. -/
noncomputable def sideCenterClose : Vec3 := ⟨0, 0, 0.7⟩

/-- `side_center_distance`, test/box_test.h:14. -/
noncomputable def sideCenterDistance : Vec3 := ⟨0, 0, 1⟩

/-- The expected answers of `contains`: test/test_box.cpp:8-21, test/test_composite_shape.cpp:17-30 and
test/test_shape.cpp:17-30 are the same assertions about different objects. -/
def Contains (f : Vec3 → Exec Bool) : Prop :=
  f origin = .ok true ∧ f pMin = .ok true ∧ f pMax = .ok true ∧ f sideCenter = .ok true ∧
  f sideCenterTriangle = .ok true ∧ f sideCenterDistance = .ok false ∧ f sideCenterClose = .ok false

/-- The expected answers of `intersect(p, radius)`: test/test_box.cpp:23-47, test/test_composite_shape.cpp:32-56 and
test/test_shape.cpp:32-56. -/
def Intersect (f : Vec3 → ℝ → Exec Bool) : Prop :=
  (f origin 0 = .ok true ∧ f origin 0.1 = .ok true) ∧
  (f pMin 0 = .ok true ∧ f pMin 0.1 = .ok true ∧ f pMax 0 = .ok true ∧ f pMax 0.1 = .ok true) ∧
  (f sideCenter 0 = .ok true ∧ f sideCenter 0.1 = .ok true ∧ f sideCenterTriangle 0 = .ok true ∧
    f sideCenterTriangle 0.1 = .ok true) ∧
  (f sideCenterDistance 0 = .ok false ∧ f sideCenterDistance 0.1 = .ok false ∧ f sideCenterDistance 0.5 = .ok true ∧
    f sideCenterDistance 0.6 = .ok true) ∧
  (f sideCenterClose 0 = .ok false ∧ f sideCenterClose 0.1 = .ok false ∧ f sideCenterClose 0.2 = .ok true ∧
    f sideCenterClose 0.25 = .ok true)

/-- `TEST_F(BoxTest, Contains)`, test/test_box.cpp:8-21. -/
theorem box_contains : Contains (fun p => .ok (box.contains p)) := by
  unfold Contains origin pMin pMax sideCenter sideCenterTriangle sideCenterDistance sideCenterClose Box.contains box
  rw [Box.new_lo, Box.new_hi]
  norm_num

/-- `TEST_F(BoxTest, Intersect)`, test/test_box.cpp:23-47. -/
theorem box_intersect : Intersect (fun p r => .ok (box.intersectSphere p r)) := by
  unfold Intersect origin pMin pMax sideCenter sideCenterTriangle sideCenterDistance sideCenterClose Box.intersectSphere
    Box.contains box Box.getCenter
  rw [Box.new_lo, Box.new_hi]
  norm_num [Box.closestCoord, Vec3.length2]

/-- The composite of test/test_composite_shape.cpp:10: the box at the identity pose. -/
noncomputable def comp : Exec Composite := Composite.new.addShape box.toObj Transform3.identity

theorem posed_identity (P : Vec3 → Prop) (p : Vec3) : Spec.Posed Transform3.identity P p ↔ P p := by
  have h : ∀ q, Transform3.identity.apply q = q := fun q => by
    ext <;> simp [Transform3.identity, Transform3.apply, Mat3.mulVec, Mat3.identity]
  constructor
  · rintro ⟨q, hp, hq⟩
    rw [h] at hp
    exact hp ▸ hq
  · exact fun hp => ⟨p, h p, hp⟩

/-- The composite answers as the box does. -/
theorem comp_same : ∃ c, comp = .ok c ∧ ∀ p R, c.contains p = .ok (box.contains p) ∧
    c.intersectSphere p R = .ok (box.intersectSphere p R) := by
  obtain ⟨c, hc, h⟩ := C31_lossless [(box.toObj, Transform3.identity)]
    (by intro x hx; rw [List.mem_singleton] at hx; subst hx; exact box_within ⟨by norm_num, by norm_num, by norm_num⟩)
    (by intro x hx; rw [List.mem_singleton] at hx; subst hx
        rw [Spec.Rigid, Spec.Orthogonal]; simp [Transform3.identity, M_identity])
  refine ⟨c, by simpa [Composite.build, comp] using hc, fun p R => ?_⟩
  obtain ⟨⟨b, e, hb⟩, b', e', hb'⟩ := h p R
  simp only [List.mem_singleton, exists_eq_left, posed_identity] at hb hb'
  rw [e, e']
  refine ⟨congrArg _ ?_, congrArg _ ?_⟩
  · rw [Bool.eq_iff_iff, hb]
    simp [Box.toObj]
  · rw [Bool.eq_iff_iff, hb']
    simp [Box.toObj]

/-- `TEST_F(CompShapeTest, Contains)`, test/test_composite_shape.cpp:17-30. -/
theorem comp_contains : ∃ c, comp = .ok c ∧ Contains c.contains := by
  obtain ⟨c, hc, h⟩ := comp_same
  refine ⟨c, hc, ?_⟩
  have e : c.contains = fun p => .ok (box.contains p) := funext fun p => (h p 0).1
  rw [e]
  exact box_contains

/-- `TEST_F(CompShapeTest, Intersect)`, test/test_composite_shape.cpp:32-56. -/
theorem comp_intersect : ∃ c, comp = .ok c ∧ Intersect c.intersectSphere := by
  obtain ⟨c, hc, h⟩ := comp_same
  refine ⟨c, hc, ?_⟩
  have e : c.intersectSphere = fun p r => .ok (box.intersectSphere p r) := funext fun p => funext fun r => (h p r).2
  rw [e]
  exact box_intersect

end Geo.Tests
