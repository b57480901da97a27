import Verif.Model.RoundedComposite
import Verif.Lemmas.Composite
import Verif.Lemmas.Rounded
import Verif.Lemmas.Chains

/-! # Building composites in floating point arithmetic -/

namespace Geo.Rounded
open Spec

variable {rnd : ℝ → ℝ}

/-- The corners of all parts as the code computes them. (Device of the proofs.) -/
def partCorners (rnd : ℝ → ℝ) (l : List (ShapeObj × Transform3)) : List Vec3 :=
  l.flatMap fun x => (cornersOf (trianglesOf x.1.mesh)).map (apply rnd x.2)

/-- The longest of the given vectors, at least `a`, as the code computes it. (Device of the proofs.) -/
noncomputable def lenMax (rnd : ℝ → ℝ) (ps : List Vec3) (a : ℝ) : ℝ := ps.foldl (fun r p => Max.max r (length rnd p)) a

theorem addCorners_eq (T : Transform3) (l : List Tri) (c : Composite) :
    let r := l.foldl (addCorners rnd T) c
    r.shapes = c.shapes ∧ r.mesh = c.mesh ∧ r.bb = c.bb ∧
    (r.min, r.max) = Shape.boundsOf ((cornersOf (l.map Tri.triple)).map (apply rnd T)) c.min c.max ∧
    r.maxRadius = lenMax rnd ((cornersOf (l.map Tri.triple)).map (apply rnd T)) c.maxRadius := by
  induction l generalizing c with
  | nil => exact ⟨rfl, rfl, rfl, rfl, rfl⟩
  | cons t l ih =>
    obtain ⟨h1, h2, h3, h4, h5⟩ := ih (addCorners rnd T c t)
    refine ⟨h1, h2, h3, ?_, ?_⟩
    · simp only [List.foldl_cons]
      rw [h4]
      simp only [List.map_cons, cornersOf, List.flatMap_cons, List.map_append,
        Shape.boundsOf, List.foldl_append, List.foldl_cons, List.foldl_nil, List.map_nil, Tri.triple,
        addCorners, min_comm, max_comm]
    · simp only [List.foldl_cons]
      rw [h5]
      simp only [List.map_cons, cornersOf, List.flatMap_cons, List.map_append,
        lenMax, List.foldl_append, List.foldl_cons, List.foldl_nil, List.map_nil, Tri.triple,
        addCorners]

theorem build_from (l : List (ShapeObj × Transform3)) (hl : ∀ x ∈ l, GoodMesh x.1.mesh) (c0 : Composite) :
    ∃ c, l.foldlM (fun c x => addShape rnd c x.1 x.2) c0 = .ok c ∧
      c.shapes = c0.shapes ++ l.map (fun x => (x.1, inverse rnd x.2)) ∧
      (c.min, c.max) = Shape.boundsOf (partCorners rnd l) c0.min c0.max ∧
      c.maxRadius = lenMax rnd (partCorners rnd l) c0.maxRadius ∧
      c.mesh = l.foldl (fun m x => m.add (getTransformed rnd x.1.mesh x.2)) c0.mesh ∧
      c.bb = if l = [] then c0.bb else Box.new c.min c.max := by
  induction l generalizing c0 with
  | nil => exact ⟨c0, rfl, by simp, rfl, rfl, rfl, by simp⟩
  | cons x l ih =>
    obtain ⟨-, r, hr, he⟩ := good_soup (hl x (by simp))
    obtain ⟨f1, f2, f3, f4, f5⟩ := addCorners_eq (rnd := rnd) x.2 r.2 c0
    have hadd : addShape rnd c0 x.1 x.2 = .ok
        { r.2.foldl (addCorners rnd x.2) c0 with
          shapes := c0.shapes ++ [(x.1, inverse rnd x.2)]
          mesh := (r.2.foldl (addCorners rnd x.2) c0).mesh.add (getTransformed rnd x.1.mesh x.2)
          bb := Box.new (r.2.foldl (addCorners rnd x.2) c0).min (r.2.foldl (addCorners rnd x.2) c0).max } := by
      unfold addShape
      rw [hr]; rfl
    generalize hc1 : ({ r.2.foldl (addCorners rnd x.2) c0 with
          shapes := c0.shapes ++ [(x.1, inverse rnd x.2)]
          mesh := (r.2.foldl (addCorners rnd x.2) c0).mesh.add (getTransformed rnd x.1.mesh x.2)
          bb := Box.new (r.2.foldl (addCorners rnd x.2) c0).min (r.2.foldl (addCorners rnd x.2) c0).max }
          : Composite) = c1 at hadd
    obtain ⟨c, g1, g2, g3, g4, g5, g6⟩ := ih (fun y hy => hl y (by simp [hy])) c1
    rw [he] at f4 f5
    have e1 : c1.shapes = c0.shapes ++ [(x.1, inverse rnd x.2)] := by rw [← hc1]
    have e2 : (c1.min, c1.max) =
        Shape.boundsOf ((cornersOf (trianglesOf x.1.mesh)).map (apply rnd x.2)) c0.min c0.max := by
      rw [← hc1]; exact f4
    have e3 : c1.maxRadius = lenMax rnd ((cornersOf (trianglesOf x.1.mesh)).map (apply rnd x.2)) c0.maxRadius := by
      rw [← hc1]; exact f5
    have e4 : c1.mesh = c0.mesh.add (getTransformed rnd x.1.mesh x.2) := by rw [← hc1]; simp only [f2]
    have e5 : c1.bb = Box.new c1.min c1.max := by rw [← hc1]
    have ec : partCorners rnd (x :: l) = (cornersOf (trianglesOf x.1.mesh)).map (apply rnd x.2) ++ partCorners rnd l := rfl
    refine ⟨c, ?_, ?_, ?_, ?_, ?_, ?_⟩
    · rw [List.foldlM_cons, hadd]; exact g1
    · rw [g2, e1]; simp
    · rw [ec, Composite.boundsOf_append, ← e2]; exact g3
    · rw [ec, lenMax, List.foldl_append]
      rw [g4, e3]; rfl
    · rw [g5, e4]; rfl
    · rw [g6]
      simp only [reduceCtorEq, if_false]
      split_ifs with h
      · subst h
        have : (c.min, c.max) = (c1.min, c1.max) := g3
        rw [e5]; simp only [Prod.mk.injEq] at this; rw [this.1, this.2]
      · rfl

theorem lenMax_spec (ps : List Vec3) (a : ℝ) :
    a ≤ lenMax rnd ps a ∧ (∀ p ∈ ps, length rnd p ≤ lenMax rnd ps a) ∧
    (lenMax rnd ps a = a ∨ ∃ p ∈ ps, length rnd p = lenMax rnd ps a) := by
  induction ps generalizing a with
  | nil => simp [lenMax]
  | cons p ps ih =>
    obtain ⟨h1, h2, h3⟩ := ih (Max.max a (length rnd p))
    have e : lenMax rnd (p :: ps) a = lenMax rnd ps (Max.max a (length rnd p)) := rfl
    rw [e]
    refine ⟨(le_max_left _ _).trans h1, ?_, ?_⟩
    · intro q hq
      rcases List.mem_cons.1 hq with rfl | hq
      · exact (le_max_right _ _).trans h1
      · exact h2 q hq
    · rcases h3 with h3 | ⟨q, hq, h3⟩
      · rcases max_choice a (length rnd p) with h | h
        · left; rw [h3, h]
        · right; exact ⟨p, by simp, by rw [h3, h]⟩
      · right; exact ⟨q, by simp [hq], h3⟩

/-- What building a composite yields. -/
theorem build_eq (l : List (ShapeObj × Transform3)) (hl : ∀ x ∈ l, GoodMesh x.1.mesh) :
    ∃ c, build rnd l = .ok c ∧ c.shapes = l.map (fun x => (x.1, inverse rnd x.2)) ∧
      c.bb = Box.new c.bb.lo c.bb.hi ∧
      (∀ p ∈ partCorners rnd l, InBox c.bb.lo c.bb.hi p) ∧
      (partCorners rnd l ≠ [] → ∀ lo hi : Vec3, (∀ p ∈ partCorners rnd l, InBox lo hi p) →
        lo.x ≤ 1e10 ∧ lo.y ≤ 1e10 ∧ lo.z ≤ 1e10 ∧ -1e10 ≤ hi.x ∧ -1e10 ≤ hi.y ∧ -1e10 ≤ hi.z →
        lo.x ≤ c.bb.lo.x ∧ lo.y ≤ c.bb.lo.y ∧ lo.z ≤ c.bb.lo.z ∧ c.bb.hi.x ≤ hi.x ∧ c.bb.hi.y ≤ hi.y ∧ c.bb.hi.z ≤ hi.z) ∧
      c.maxRadius = lenMax rnd (partCorners rnd l) 0 ∧
      c.mesh = l.foldl (fun m x => m.add (getTransformed rnd x.1.mesh x.2)) Mesh.new := by
  obtain ⟨c, h1, h2, h3, h4, h5, h6⟩ := build_from (rnd := rnd) l hl Composite.new
  have hb : partCorners rnd l ≠ [] → (c.bb.lo, c.bb.hi) = Shape.boundsOf (partCorners rnd l) (.all 1e10) (.all (-1e10)) := by
    intro hne
    have : l ≠ [] := by rintro rfl; exact hne rfl
    rw [if_neg this] at h6
    rw [h6]; exact h3
  refine ⟨c, h1, by rw [h2]; simp [Composite.new], ?_, ?_, ?_, h4, h5⟩
  · by_cases hne : l = []
    · rw [if_pos hne] at h6; rw [h6]; rfl
    · rw [if_neg hne] at h6; rw [h6]; rfl
  · intro p hp
    have hne : partCorners rnd l ≠ [] := by intro h; rw [h] at hp; simp at hp
    have e := hb hne
    have := (boundsOf_spec (partCorners rnd l) (.all 1e10) (.all (-1e10))).2.1 p hp
    rw [← e] at this
    exact this
  · intro hne lo hi hp hlh
    have := (boundsOf_spec (partCorners rnd l) (.all 1e10) (.all (-1e10))).2.2 lo hi hp hlh
    rw [← hb hne] at this
    exact this

/-- The triangles of all parts as the code computes them. (Device of the proofs.) -/
def partTriangles (rnd : ℝ → ℝ) (l : List (ShapeObj × Transform3)) : List (Vec3 × Vec3 × Vec3) :=
  l.flatMap fun x => (trianglesOf x.1.mesh).map fun t => (apply rnd x.2 t.1, apply rnd x.2 t.2.1, apply rnd x.2 t.2.2)

theorem soup_transformed (m : Mesh) (T : Transform3) {l : List (Vec3 × Vec3 × Vec3)} (hl : soup m.points m.tris = some l) :
    soup (getTransformed rnd m T).points (getTransformed rnd m T).tris =
      some (l.map fun c => (apply rnd T c.1, apply rnd T c.2.1, apply rnd T c.2.2)) := by
  rw [Mesh.soup_some] at hl ⊢
  rw [List.forall₂_map_right_iff]
  refine hl.imp ?_
  rintro t c ⟨a, b, d⟩
  simp [getTransformed, a, b, d]

theorem addMeshes (l : List (ShapeObj × Transform3)) (hl : ∀ x ∈ l, GoodMesh x.1.mesh) (m : Mesh) (hm : GoodMesh m)
    (hn : m.points.length + (l.map fun x => x.1.mesh.points.length).sum ≤ 2 ^ 32) :
    let r := l.foldl (fun m x => m.add (getTransformed rnd x.1.mesh x.2)) m
    GoodMesh r ∧ trianglesOf r = trianglesOf m ++ partTriangles rnd l := by
  induction l generalizing m with
  | nil => simp [partTriangles, hm]
  | cons x l ih =>
    have hx := hl x (by simp)
    have hn' : m.points.length + (getTransformed rnd x.1.mesh x.2).points.length ≤ 2 ^ 32 := by
      simp only [List.map_cons, List.sum_cons] at hn
      simp only [getTransformed, List.length_map]
      omega
    obtain ⟨a1, a2⟩ := C12_add m (getTransformed rnd x.1.mesh x.2) _ _ (good_soup hm).1
      (soup_transformed x.1.mesh x.2 (good_soup hx).1) hn'
    have hg : GoodMesh (m.add (getTransformed rnd x.1.mesh x.2)) := ⟨hm.1.add, Mesh.valid_of_soup a2⟩
    obtain ⟨i1, i2⟩ := ih (fun y hy => hl y (by simp [hy])) _ hg (by
      rw [a1]
      simp only [List.map_cons, List.sum_cons] at hn
      simp only [getTransformed, List.length_append, List.length_map]
      omega)
    refine ⟨i1, ?_⟩
    simp only [List.foldl_cons]
    rw [i2]
    have e : trianglesOf (m.add (getTransformed rnd x.1.mesh x.2)) = trianglesOf m ++ (trianglesOf x.1.mesh).map
        (fun c => (apply rnd x.2 c.1, apply rnd x.2 c.2.1, apply rnd x.2 c.2.2)) := by
      conv_lhs => unfold trianglesOf
      rw [a2]; rfl
    rw [e]
    simp [partTriangles]

end Geo.Rounded
