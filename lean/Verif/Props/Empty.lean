import Verif.Props.Shape
import Verif.Props.HeightMap
import Verif.Lemmas.Composite
import Verif.Model.DepthCamera
import Verif.Model.LaserRangeFinder

/-!
# Property theorems C112: what `empty()` tells
-/

namespace Geo
open Spec

/-- C112: a mesh shape reports itself empty exactly if no sphere of positive radius meets it; it then contains no point
either, and no sphere of radius 0 or less meets it. -/
theorem C112_shape (s : Shape) (hm : Reachable s.mesh) (hv : Valid s.mesh.points s.mesh.tris) :
    (s.empty = true ↔ ∀ p R, 0 < R → s.intersectSphere p R = .ok false) ∧
    (s.empty = true → ∀ p R, s.contains p = .ok false ∧ s.intersectSphere p R = .ok false) := by
  have none : s.empty = true → ∀ p R, s.contains p = .ok false ∧ s.intersectSphere p R = .ok false := by
    intro h p R
    have ht : s.mesh.tris = [] := by simpa [Shape.empty, Mesh.empty] using h
    have hc : Shape.containsMesh s.mesh p = .ok false := by
      unfold Shape.containsMesh
      rw [ht]
      split <;> simp [Shape.containsLoop]
    refine ⟨hc, ?_⟩
    unfold Shape.intersectSphere Shape.intersectSphereMesh
    rw [hc, ht]
    simp only [Shape.sphereLoop]
    split
    · rfl
    · split <;> rfl
  refine ⟨⟨fun h p R _ => (none h p R).2, fun h => ?_⟩, none⟩
  by_contra hne
  have ht : s.mesh.tris ≠ [] := by simpa [Shape.empty, Mesh.empty] using hne
  obtain ⟨l, hl⟩ := Mesh.soup_valid hv
  have hs := Mesh.mapM_corners_soup.1 hl
  have hlen := (Mesh.soup_some.1 hs).length_eq
  rcases hts : List.map Tri.triple l with _ | ⟨t, ts⟩
  · rw [hts] at hlen
    exact ht (List.length_eq_zero_iff.1 hlen)
  · have hx : (⟨1 * t.1.x + 0 * t.2.1.x + 0 * t.2.2.x, 1 * t.1.y + 0 * t.2.1.y + 0 * t.2.2.y,
        1 * t.1.z + 0 * t.2.1.z + 0 * t.2.2.z⟩ : Vec3) = t.1 := by ext <;> simp
    have := C21_sphere_complete_partial s hm _ hs t.1 1 one_pos t (by rw [hts]; exact List.mem_cons_self) t.1
      ⟨1, 0, 0, by norm_num, by norm_num, by norm_num, by norm_num, hx.symm⟩ (by simp [Spec.dist, distSq])
      (.inr ⟨1, 0, 0, by norm_num, by norm_num, by norm_num, by norm_num, .inr (.inl rfl), hx.symm⟩)
    rw [h t.1 1 one_pos] at this
    simp at this

/-- C112: a box is never empty. -/
theorem C112_box (lo hi : Vec3) : (Box.new lo hi).mesh.empty = false := rfl

/-- C112: a composite reports itself empty exactly if all its parts do. -/
theorem C112_composite (l : List (ShapeObj × Transform3)) (hm : ∀ x ∈ l, GoodMesh x.1.mesh) :
    ∃ c, Composite.build l = .ok c ∧ (c.mesh.empty = true ↔ ∀ x ∈ l, x.1.mesh.empty = true) := by
  obtain ⟨c, hc, -, -, -, e, -⟩ := Composite.build_from l hm Composite.new
  refine ⟨c, hc, ?_⟩
  rw [e]
  have step : ∀ (l : List (ShapeObj × Transform3)) (m : Mesh),
      ((l.foldl (fun m x => m.add (x.1.mesh.getTransformed x.2)) m).empty = true ↔
        m.empty = true ∧ ∀ x ∈ l, x.1.mesh.empty = true) := by
    intro l
    induction l with
    | nil => simp
    | cons x l ih =>
      intro m
      rw [List.foldl_cons, ih]
      simp [Mesh.add, Mesh.empty, Mesh.getTransformed, and_assoc, Mesh.invalidateCache]
  rw [step]
  exact ⟨fun h => h.2, fun h => ⟨rfl, h⟩⟩

/-- C112: drawing a shape with an empty mesh changes no range of a laser range finder and no pixel of a depth image. -/
theorem C112_drawn (m : Mesh) (he : m.empty = true) (pose : Transform3) :
    (∀ (l : LRF) (ranges : List EReal), ranges.length = l.rayDirs.length →
      ∃ r, l.render m pose ranges = .ok r ∧ r.ranges = ranges) ∧
    (∀ (c : Camera) (image : DepthImage) (pm : List (List ℕ)) (ptr : ℕ) (tm : List (List ℤ)),
      ∃ r, rasterize c m pose image pm ptr tm = .ok r ∧ r.image = image) := by
  have ht : m.tris = [] := by simpa [Mesh.empty] using he
  constructor
  · intro l ranges hlen
    unfold LRF.render
    rw [ht]
    simp only [LRF.renderTriangles]
    refine ⟨_, ite_self _, ?_⟩
    simp [LRF.resizeRanges, hlen]
  · intro c image pm ptr tm
    unfold rasterize Raster.render
    rw [ht]
    simp only [Raster.loop]
    refine ⟨.new image ptr pm tm, ?_, rfl⟩
    split
    · rfl
    · split <;> rfl

/-- C112 (full statement refuted by `C112_pit_wrong`): for a grid without negative heights, the height map reports itself
empty exactly if no cell has a positive height, that is, if its tree has no column for a ray to hit. Missing for the full
claim: negative heights. -/
theorem C112_heightmap_partial (grid : List (List ℝ)) (m n : ℕ) (res : ℝ) (hg : Rectangular grid m n) (hm : 0 < m)
    (hr : GridInRange grid m n res) (hp : ∀ x y, 0 ≤ height grid x y) :
    ∃ h, HeightMap.fromGrid grid res = .ok h ∧ (h.mesh.empty = true ↔ ∀ x y, height grid x y ≤ 0) ∧
      (h.mesh.empty = true ↔ leaves h.root = []) := by
  obtain ⟨h, F, WX, WY, S, e, ⟨p1, -⟩, p2, p3, p4, p5, s1, s2, -⟩ := HeightMap.fromGrid_ok hg hm hr
  have hlen := (Mesh.soup_some.1 s1).length_eq
  have hlen2 := s2.length_eq
  have face : ∀ f : Face, 0 < (f.tris res).length := by
    rintro (_ | _ | _) <;> simp [Face.tris]
  have key : h.mesh.empty = true ↔ F ++ WX ++ WY = [] := by
    have : h.mesh.empty = true ↔ ((F ++ WX ++ WY).flatMap (Face.tris res)).length = 0 := by
      rw [hlen2, ← hlen]
      simp [Mesh.empty]
    rw [this]
    constructor
    · intro h0
      rcases hx : F ++ WX ++ WY with _ | ⟨f, L⟩
      · rfl
      · rw [hx, List.flatMap_cons, List.length_append] at h0
        have := face f
        omega
    · intro h0
      rw [h0]
      rfl
  have main : h.mesh.empty = true ↔ ∀ x y, height grid x y ≤ 0 := by
    rw [key]
    constructor
    · intro h0 x y
      by_contra hc
      obtain ⟨f, hf, -⟩ := p2 x y (not_le.1 hc)
      simp only [List.append_eq_nil_iff] at h0
      rw [h0.1.1] at hf
      simp at hf
    · intro h0
      have z : ∀ x y, height grid x y = 0 := fun x y => le_antisymm (h0 x y) (hp x y)
      have sep : Separated grid := fun x y x' y' hne => absurd (by rw [z, z]) hne
      obtain ⟨⟨wx, -⟩, ⟨wy, -⟩⟩ := p5 sep
      simp only [List.append_eq_nil_iff]
      refine ⟨⟨List.eq_nil_iff_forall_not_mem.2 fun f hf => ?_, List.eq_nil_iff_forall_not_mem.2 fun f hf => ?_⟩,
        List.eq_nil_iff_forall_not_mem.2 fun f hf => ?_⟩
      · have := p1 f hf
        rcases f with ⟨x0, y0, x1, y1, k⟩ | _ | _
        · obtain ⟨-, -, -, -, hk, hk0, -⟩ := this
          rw [z] at hk
          linarith
        · exact this
        · exact this
      · have := p3 f hf
        rcases f with _ | ⟨x, y0, y1, k, k2⟩ | _
        · exact this
        · refine (wx _ hf x y0 ⟨rfl, le_rfl, this.2.1⟩).2 ?_
          unfold heightLeft
          split <;> simp [z]
        · exact this
      · have := p4 f hf
        rcases f with _ | _ | ⟨y, x0, x1, k, k2⟩
        · exact this
        · exact this
        · refine (wy _ hf x0 y ⟨rfl, le_rfl, this.2.1⟩).2 ?_
          unfold heightBelow
          split <;> simp [z]
  refine ⟨h, e, main, main.trans ?_⟩
  have hsz : m ≤ 2 ^ 31 ∧ n ≤ 2 ^ 31 := by
    have := hr.1
    constructor <;> nlinarith
  obtain ⟨⟨cells, -, hc, hl⟩, -⟩ := (C42_tree grid m n res hg hm hsz.1 hsz.2).1 h e
  rw [hl, List.map_eq_nil_iff, List.eq_nil_iff_forall_not_mem]
  constructor
  · intro h0 c hcc
    exact absurd ((hc c).1 hcc) (not_lt.2 (h0 _ _))
  · intro h0 x y
    by_contra hn
    exact h0 (x, y) ((hc (x, y)).2 (not_le.1 hn))

/-- C112 fails for pits: the map of one cell of height -1 has no column for a ray to hit, but walls in its mesh, and so does not
report itself empty. -/
theorem C112_pit_wrong : ∃ h, HeightMap.fromGrid [[-1]] 1 = .ok h ∧ leaves h.root = [] ∧ h.mesh.empty = false := by
  have hg : Rectangular [[-1]] 1 1 := ⟨rfl, by simp⟩
  have hr : GridInRange [[-1]] 1 1 1 := HeightMap.small_inRange (by norm_num) (by norm_num) (by norm_num) (by simp)
  have hh : ∀ x y, height [[-1]] x y = if x = 0 ∧ y = 0 then -1 else 0 := by
    intro x y
    rcases x with _ | x
    · rcases y with _ | y <;> simp [height]
    · simp [height]
  obtain ⟨h, F, WX, WY, S, e, -, -, -, -, p5, s1, s2, -⟩ := HeightMap.fromGrid_ok hg (by norm_num) hr
  refine ⟨h, e, ?_, ?_⟩
  · obtain ⟨⟨cells, -, hc, hl⟩, -⟩ := (C42_tree [[-1]] 1 1 1 hg (by norm_num) (by norm_num) (by norm_num)).1 h e
    rw [hl, List.map_eq_nil_iff, List.eq_nil_iff_forall_not_mem]
    intro c hcc
    have := (hc c).1 hcc
    rw [hh] at this
    split at this <;> norm_num at this
  · have sep : Separated [[-1]] := by
      intro x y x' y' hne
      rw [hh, hh] at hne ⊢
      split_ifs at hne ⊢ <;> first | exact absurd rfl hne | norm_num
    obtain ⟨f, hf, -⟩ := (p5 sep).1.2.1 0 0 (by rw [hh]; norm_num [heightLeft])
    by_contra hne
    have ht : h.mesh.tris = [] := by simpa [Mesh.empty] using hne
    have l1 := (Mesh.soup_some.1 s1).length_eq
    have l2 := s2.length_eq
    rw [ht] at l1
    rw [← l1, List.length_nil, List.length_eq_zero_iff, List.flatMap_eq_nil_iff] at l2
    have := l2 f (by simp [hf])
    rcases f with _ | _ | _ <;> simp [Face.tris] at this

/-- C112 cases: a mesh of points without triangles is empty, a triangle is not. -/
example : Reachable ⟨[⟨1, 2, 3⟩], [], [], 0, 0⟩ ∧ (⟨⟨[⟨1, 2, 3⟩], [], [], 0, 0⟩, false, 0, 0⟩ : Shape).empty = true :=
  ⟨⟨[.addPoint ⟨1, 2, 3⟩], by
    simp [Mesh.run, Mesh.step, Mesh.addPoint, Mesh.new, Mesh.invalidateCache, bind, Except.bind]⟩, rfl⟩

/-- C112 case: two columns without negative heights. -/
example : Rectangular [[10], [10]] 2 1 ∧ GridInRange [[10], [10]] 2 1 1 ∧ ∀ x y, 0 ≤ height [[10], [10]] x y := by
  refine ⟨twoColumns.1, twoColumns.2.1, ?_⟩
  rintro (_ | _ | x) (_ | y) <;> simp [height]

end Geo
