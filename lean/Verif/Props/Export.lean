import Verif.Lemmas.Export
import Verif.Props.Import

/-!
# Properties of exported scenes (C71, C85)
-/

namespace Geo

open Spec Import Export

/-- C71: the exporter gets the file name and a scene of one mesh, placed once and without transformation, whose vertices are the
points of the shape, narrowed, and whose faces are its triangles, in order; the result is that of the exporter. -/
theorem C71_scene {narrow : ℝ → ℝ} {filename format : List Char} {shape : Shape} {c : Call}
    (h : writeCall narrow filename shape format = .ok c) :
    c.filename = filename ∧
    (∃ m, c.scene.meshes = [m] ∧ (∀ i : ℕ, m.vertices[i]? = (shape.mesh.points[i]?).map (narrowed narrow)) ∧
      ∀ i : ℕ, m.faces[i]? = (shape.mesh.tris[i]?).map fun t => [t.i1, t.i2, t.i3]) ∧
    (∀ k P, Placed c.scene.root Transform3.identity k P ↔ k = 0 ∧ P = Transform3.identity) ∧
    (shape.mesh.points.length < 2 ^ 32 → c.numVertices = shape.mesh.points.length) ∧
    (shape.mesh.tris.length < 2 ^ 32 → c.numFaces = shape.mesh.tris.length) ∧
    ∀ exporter, writeMeshFile exporter narrow filename shape format = .ok (exporter c) := by
  have hw : ∀ exporter, writeMeshFile exporter narrow filename shape format = .ok (exporter c) := fun exporter => by
    unfold writeMeshFile
    rw [h]
    rfl
  obtain ⟨fmt, rfl⟩ := writeCall_eq h
  refine ⟨rfl, ⟨_, rfl, fun i => List.getElem?_map .., fun i => List.getElem?_map ..⟩, fun k P => ?_, Shapes.u32_small,
    Shapes.u32_small, hw⟩
  have one : Transform3.identity.mul (AiMatrix.pose ⟨1, 0, 0, 0, 0, 1, 0, 0, 0, 0, 1, 0⟩) = Transform3.identity := by
    ext <;> simp [Transform3.mul, Transform3.identity, Mat3.mul, Mat3.mulVec, Mat3.identity, AiMatrix.pose]
  constructor
  · intro hP
    cases hP with
    | here hk => exact ⟨List.mem_singleton.1 hk, one⟩
    | child hc => cases hc
  · rintro ⟨rfl, rfl⟩
    have : Placed (.mk ⟨1, 0, 0, 0, 0, 1, 0, 0, 0, 0, 1, 0⟩ [] [0]) Transform3.identity 0 _ := .here (List.mem_singleton.2 rfl)
    rw [one] at this
    exact this

/-- C71: a given format (of ASCII characters) is used in lower case, whatever the file name. -/
theorem C71_explicit (narrow : ℝ → ℝ) (filename : List Char) (shape : Shape) {format : List Char} (hne : format ≠ [])
    (ha : ∀ x ∈ format, x.toNat < 128) :
    ∃ c, writeCall narrow filename shape format = .ok c ∧ c.format = format.map lower := by
  unfold writeCall
  rw [mapM_ok format (fun x hx => tolower_ascii (ha x hx))]
  simp only
  rw [Shapes.ok_bind, if_neg (by simpa using hne)]
  exact ⟨_, rfl, rfl⟩

/-- C71: without a format, the last three characters of the file name decide by the table; other names that end with x stand for
x, and other names for no format. -/
theorem C71_suffix (narrow : ℝ → ℝ) (stem : List Char) (a b x : Char) (shape : Shape) :
    ∃ c, writeCall narrow (stem ++ [a, b, x]) shape [] = .ok c ∧
      c.format = ((formats.lookup [a, b, x]).getD (if x = 'x' then ['x'] else [])) := by
  obtain ⟨f, hf, e⟩ : ∃ f, guess (stem ++ [a, b, x]) = .ok f ∧
      f = ((formats.lookup [a, b, x]).getD (if x = 'x' then ['x'] else [])) := guess_three stem a b x
  unfold writeCall
  simp only
  rw [show List.mapM tolower [] = .ok [] from rfl, Shapes.ok_bind, if_pos rfl, hf, Shapes.ok_bind]
  exact ⟨_, rfl, e⟩

/-- C71: without a format, a file name of less than three characters raises an exception. -/
theorem C71_short (narrow : ℝ → ℝ) {filename : List Char} (shape : Shape) (h : filename.length < 3) :
    writeCall narrow filename shape [] = .error .exception := by
  have hg : guess filename = .error .exception := by
    unfold guess hasSuffix
    rw [show substr filename (sizeMinus filename "3ds".toList.length) = .error .exception from ?_]
    · rfl
    · unfold substr sizeMinus
      rw [show "3ds".toList.length = 3 from rfl, if_neg (by omega : ¬ 3 ≤ filename.length), if_neg (by omega)]
  unfold writeCall
  simp only
  rw [show List.mapM tolower [] = .ok [] from rfl, Shapes.ok_bind, if_pos rfl, hg]
  rfl

/-- C71: a format with a byte from 128 to 254 is undefined behaviour (the sign of `char` is not removed before `tolower`). -/
theorem C71_bytes (narrow : ℝ → ℝ) (filename : List Char) (shape : Shape) {format : List Char}
    (h : ∃ x ∈ format, 128 ≤ x.toNat ∧ x.toNat ≠ 255) :
    writeCall narrow filename shape format = .error .ub := by
  have he : format.mapM tolower = .error .ub := by
    apply mapM_error (g := fun x => if x.toNat < 128 then lower x else x)
    · intro x hx
      by_cases h1 : x.toNat < 128
      · left
        rw [tolower_ascii h1, if_pos h1]
      · by_cases h2 : x.toNat = 255
        · left
          unfold tolower
          rw [if_neg h1, if_pos h2, if_neg h1]
        · right
          unfold tolower
          rw [if_neg h1, if_neg h2]
    · obtain ⟨x, hx, h1, h2⟩ := h
      refine ⟨x, hx, ?_⟩
      unfold tolower
      rw [if_neg (by omega), if_neg h2]
  unfold writeCall
  rw [he]
  rfl

/-- A triangle as a shape. (Specification, example.) -/
noncomputable def triangleShape : Shape :=
  Shape.new.setMesh ⟨[⟨0, 0, 0⟩, ⟨1, 0, 0⟩, ⟨0, 1, 0⟩], [⟨0, 1, 2⟩, ⟨2, 1, 0⟩], [], 0, 0⟩

/-- An upper-case format, names that end with dae, .x and x3d, and an unknown one. -/
example : (∃ c, writeCall id "a".toList triangleShape "STL".toList = .ok c ∧ c.format = "stl".toList) ∧
    (∃ c, writeCall id "t.dae".toList triangleShape [] = .ok c ∧ c.format = "collada".toList) ∧
    (∃ c, writeCall id "t.x".toList triangleShape [] = .ok c ∧ c.format = "x".toList) ∧
    (∃ c, writeCall id "t.x3d".toList triangleShape [] = .ok c ∧ c.format = "x3d".toList) ∧
    (∃ c, writeCall id "t.DAE".toList triangleShape [] = .ok c ∧ c.format = []) := by
  refine ⟨?_, ?_, ?_, ?_, ?_⟩
  · obtain ⟨c, h, e⟩ := C71_explicit id "a".toList triangleShape (format := "STL".toList) (by decide) (by decide)
    exact ⟨c, h, e.trans (by decide)⟩
  · obtain ⟨c, h, e⟩ := C71_suffix id "t.".toList 'd' 'a' 'e' triangleShape
    exact ⟨c, h, e.trans (by decide)⟩
  · obtain ⟨c, h, e⟩ := C71_suffix id [] 't' '.' 'x' triangleShape
    exact ⟨c, h, e.trans (by decide)⟩
  · obtain ⟨c, h, e⟩ := C71_suffix id "t.".toList 'x' '3' 'd' triangleShape
    exact ⟨c, h, e.trans (by decide)⟩
  · obtain ⟨c, h, e⟩ := C71_suffix id "t.".toList 'D' 'A' 'E' triangleShape
    exact ⟨c, h, e.trans (by decide)⟩

/-- C85: a mesh with valid indices and different triangles, whose narrowed points lie in millimetre cells of their own, is
returned (narrowed) by importing the exported scene, under any file name of at least three characters. -/
theorem C85_roundtrip {narrow : ℝ → ℝ} {filename name format : List Char} {shape : Shape} {c : Call}
    (h : writeCall narrow filename shape format = .ok c) (hn : 3 ≤ name.length)
    (h32 : shape.mesh.points.length ≤ 2 ^ 32) (hr : ∀ p ∈ shape.mesh.points, InIntRange (narrowed narrow p))
    (hd : shape.mesh.points.Pairwise fun p q => ¬ SameCell3 (narrowed narrow p) (narrowed narrow q))
    (hi : ∀ t ∈ shape.mesh.tris, t.i1 < shape.mesh.points.length ∧ t.i2 < shape.mesh.points.length ∧
      t.i3 < shape.mesh.points.length) (ht : shape.mesh.tris.Nodup) :
    ∃ sh, readMeshFile (some c.scene) name ⟨1, 1, 1⟩ = .ok (some sh) ∧
      sh.mesh.points = shape.mesh.points.map (narrowed narrow) ∧ sh.mesh.tris = shape.mesh.tris := by
  obtain ⟨fmt, rfl⟩ := writeCall_eq h
  set T : AiMatrix := ⟨1, 0, 0, 0, 0, 1, 0, 0, 0, 0, 1, 0⟩
  set V := shape.mesh.points.map (narrowed narrow)
  set F := shape.mesh.tris.map fun t => [t.i1, t.i2, t.i3]
  have sc : ∀ v : Vec3, scaled ⟨1, 1, 1⟩ v = v := fun v => by simp [scaled]
  have key : ∀ transform parent, parent = Transform3.identity → ∃ m, constructMesh [⟨V, F⟩] ⟨1, 1, 1⟩ transform (.mk T [] [0]) parent Mesh.new = .ok m ∧
      m.points = V ∧ m.tris = shape.mesh.tris := by
    rintro transform parent rfl
    have one : Transform3.identity.mul T.pose = Transform3.identity := by
      ext <;> simp [T, Transform3.mul, Transform3.identity, Mat3.mul, Mat3.mulVec, Mat3.identity, AiMatrix.pose]
    have pl : ∀ v, place ⟨1, 1, 1⟩ transform Transform3.identity v = v := fun v => by
      cases transform <;> simp [place, Transform3.apply, Transform3.identity, Mat3.identity, Mat3.mulVec]
    obtain ⟨r, e1, e2, e3, e4⟩ := vertexLoop_distinct (scale := ⟨1, 1, 1⟩) (transform := transform) (pose := Transform3.identity) V
      Mesh.new [] [] (fun v hv => by
        obtain ⟨p, hp, rfl⟩ := List.mem_map.1 hv
        rw [sc]
        exact hr p hp) (by
        simp only [sc, V, List.map_map]
        rw [List.Nodup, List.pairwise_map]
        refine hd.imp ?_
        intro p q hpq e
        exact hpq ((Mesh.key_eq_iff _ _).1 e)) (fun v _ => rfl)
    obtain ⟨m, f1, f2, f3⟩ := faceLoop_distinct h32 shape.mesh.tris r.1 [] hi ht (fun t _ => by simp)
    refine ⟨m, ?_, ?_, ?_⟩
    · rw [constructMesh, constructChildren]
      rw [Shapes.ok_bind, one, List.foldlM_cons]
      rw [show addMesh [⟨V, F⟩] ⟨1, 1, 1⟩ transform Transform3.identity Mesh.new 0 = .ok m from ?_]
      · rfl
      · unfold addMesh
        rw [show vget [(⟨V, F⟩ : AiMesh)] 0 = .ok ⟨V, F⟩ from rfl, Shapes.ok_bind, e1, Shapes.ok_bind]
        show faceLoop r.2 F r.1 [] = .ok m
        rw [show r.2 = (List.range' 0 shape.mesh.points.length).map fun i => toInt32 (u32 i) by
          rw [e4]
          simp [Mesh.new, Mesh.invalidateCache, V]]
        exact f1
    · rw [f2, e2]
      simp only [Mesh.new, Mesh.invalidateCache, List.nil_append]
      exact (List.map_congr_left fun v _ => pl v).trans (List.map_id _)
    · rw [f3, e3]
      rfl
  have he : ∃ e, substr name (sizeMinus name 3) = .ok e := by
    unfold substr sizeMinus
    rw [if_pos hn, if_pos (by omega)]
    exact ⟨_, rfl⟩
  obtain ⟨e, he⟩ := he
  unfold readMeshFile
  simp only [he]
  rw [Shapes.ok_bind, Shapes.ok_bind]
  split
  · obtain ⟨m, hm, h1, h2⟩ := key (!decide (e = "3ds".toList)) (Transform3.inverse ⟨T.pose.R.normalized, T.pose.t⟩) (by
      have : M T.pose.R = (1 : ℝ) • M Mat3.identity := by
        simp [T, AiMatrix.pose, M, Mat3.identity]
      have o : Orthogonal Mat3.identity := by
        rw [orth_iff]
        simp [Mat3.identity]
      have n := normalized_scaled one_pos o
      rw [show T.pose.R.normalized = Mat3.identity from ?_]
      · ext <;> simp [Transform3.inverse, Mat3.transpose, Mat3.mulVec, T, AiMatrix.pose, Transform3.identity, Mat3.identity]
      · rw [← n]
        simp [T, AiMatrix.pose, Mat3.identity])
    refine ⟨Shape.new.setMesh m, ?_, h1, h2⟩
    exact (congrArg (· >>= _) hm).trans rfl
  · obtain ⟨m, hm, h1, h2⟩ := key (!decide (e = "3ds".toList)) _ rfl
    refine ⟨Shape.new.setMesh m, ?_, h1, h2⟩
    exact (congrArg (· >>= _) hm).trans rfl

/-- The triangle, shown from both sides, meets the conditions. -/
example : (∀ p ∈ triangleShape.mesh.points, InIntRange (narrowed id p)) ∧
    (triangleShape.mesh.points.Pairwise fun p q => ¬ SameCell3 (narrowed id p) (narrowed id q)) ∧
    (∀ t ∈ triangleShape.mesh.tris, t.i1 < triangleShape.mesh.points.length ∧ t.i2 < triangleShape.mesh.points.length ∧
      t.i3 < triangleShape.mesh.points.length) ∧ triangleShape.mesh.tris.Nodup := by
  refine ⟨?_, ?_, ?_, ?_⟩
  · intro p hp
    simp only [triangleShape, Shape.setMesh, List.mem_cons, List.not_mem_nil, or_false] at hp
    rcases hp with rfl | rfl | rfl <;> norm_num [InIntRange, narrowed, abs_lt]
  · simp only [← Mesh.key_eq_iff]
    norm_num [triangleShape, Shape.setMesh, Mesh.key, narrowed, trunc]
  · intro t ht
    simp only [triangleShape, Shape.setMesh, List.mem_cons, List.not_mem_nil, or_false] at ht
    rcases ht with rfl | rfl <;> simp [triangleShape, Shape.setMesh]
  · simp [triangleShape, Shape.setMesh]

end Geo
