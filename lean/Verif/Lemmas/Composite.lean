import Verif.Spec.Composite
import Verif.Lemmas.Sphere
import Verif.Props.Box
import Verif.Props.Mesh

/-! # Lemmas about composites -/

namespace Geo
open Spec

theorem Spec.Reachable.add {m n : Mesh} (h : Reachable m) : Reachable (m.add n) := by
  obtain ⟨ops, h⟩ := h
  exact ⟨ops ++ [.add n], by
    rw [run_append h]; simp [Mesh.run, Mesh.step, bind, Except.bind]⟩

theorem good_soup {m : Mesh} (h : GoodMesh m) :
    soup m.points m.tris = some (trianglesOf m) ∧
    ∃ r, m.getTriangles = .ok r ∧ r.2.map Tri.triple = trianglesOf m := by
  obtain ⟨l, hl⟩ := Mesh.soup_valid h.2
  have hs := Mesh.mapM_corners_soup.1 hl
  have e : trianglesOf m = l.map Tri.triple := by unfold trianglesOf; rw [hs]; rfl
  refine ⟨by rw [e, hs], ?_⟩
  have hc := Mesh.getTriangles_ok h.1.coherent
  cases hg : m.getTriangles with
  | error e' => 
    have := hc.2 e' hg
    rw [hl] at this; simp at this
  | ok r =>
    refine ⟨r, rfl, ?_⟩
    have := (hc.1 r hg).1
    rw [hl] at this
    simp only [Except.ok.injEq] at this
    rw [← this, e]

/-- Corners of the triangles of one part, moved. -/
def posedCorners (T : Transform3) (ts : List (Vec3 × Vec3 × Vec3)) : List Vec3 :=
  (cornersOf ts).map T.apply

theorem cornersOf_append (a b : List (Vec3 × Vec3 × Vec3)) :
    cornersOf (a ++ b) = cornersOf a ++ cornersOf b := by
  simp [cornersOf]

theorem cornersOf_posed (T : Transform3) (ts : List (Vec3 × Vec3 × Vec3)) :
    cornersOf (ts.map fun t => (T.apply t.1, T.apply t.2.1, T.apply t.2.2)) = posedCorners T ts := by
  induction ts with
  | nil => rfl
  | cons t ts ih =>
    simp only [cornersOf, posedCorners, List.map_cons, List.flatMap_cons, List.map_append,
      List.map_nil] at ih ⊢
    rw [ih]

namespace Composite

/-- The longest of the given vectors, at least `a`. -/
noncomputable def lenMax (ps : List Vec3) (a : ℝ) : ℝ := ps.foldl (fun r p => Max.max r p.length) a

theorem addCorners_eq (T : Transform3) (l : List Tri) (c : Composite) :
    let r := l.foldl (addCorners T) c
    r.shapes = c.shapes ∧ r.mesh = c.mesh ∧ r.bb = c.bb ∧
    (r.min, r.max) = Shape.boundsOf (posedCorners T (l.map Tri.triple)) c.min c.max ∧
    r.maxRadius = lenMax (posedCorners T (l.map Tri.triple)) c.maxRadius := by
  induction l generalizing c with
  | nil => exact ⟨rfl, rfl, rfl, rfl, rfl⟩
  | cons t l ih =>
    obtain ⟨h1, h2, h3, h4, h5⟩ := ih (addCorners T c t)
    refine ⟨h1, h2, h3, ?_, ?_⟩
    · simp only [List.foldl_cons]
      rw [h4]
      simp only [List.map_cons, posedCorners, cornersOf, List.flatMap_cons, List.map_append,
        Shape.boundsOf, List.foldl_append, List.foldl_cons, List.foldl_nil, List.map_nil, Tri.triple,
        addCorners, min_comm, max_comm]
    · simp only [List.foldl_cons]
      rw [h5]
      simp only [List.map_cons, posedCorners, cornersOf, List.flatMap_cons, List.map_append,
        lenMax, List.foldl_append, List.foldl_cons, List.foldl_nil, List.map_nil, Tri.triple,
        addCorners]

theorem boundsOf_append (a b : List Vec3) (lo hi : Vec3) :
    Shape.boundsOf (a ++ b) lo hi =
      Shape.boundsOf b (Shape.boundsOf a lo hi).1 (Shape.boundsOf a lo hi).2 := by
  simp [Shape.boundsOf, List.foldl_append]

theorem posedTriangles_cons (x : ShapeObj × Transform3) (l : List (ShapeObj × Transform3)) :
    cornersOf (posedTriangles (x :: l)) =
      posedCorners x.2 (trianglesOf x.1.mesh) ++ cornersOf (posedTriangles l) := by
  unfold posedTriangles
  rw [List.flatMap_cons, cornersOf_append, cornersOf_posed]

theorem build_from (l : List (ShapeObj × Transform3)) (hl : ∀ x ∈ l, GoodMesh x.1.mesh)
    (c0 : Composite) :
    ∃ c, l.foldlM (fun c x => c.addShape x.1 x.2) c0 = .ok c ∧
      c.shapes = c0.shapes ++ l.map (fun x => (x.1, x.2.inverse)) ∧
      (c.min, c.max) = Shape.boundsOf (cornersOf (posedTriangles l)) c0.min c0.max ∧
      c.maxRadius = lenMax (cornersOf (posedTriangles l)) c0.maxRadius ∧
      c.mesh = l.foldl (fun m x => m.add (x.1.mesh.getTransformed x.2)) c0.mesh ∧
      c.bb = if l = [] then c0.bb else Box.new c.min c.max := by
  induction l generalizing c0 with
  | nil => exact ⟨c0, rfl, by simp, rfl, rfl, rfl, by simp⟩
  | cons x l ih =>
    obtain ⟨-, r, hr, he⟩ := good_soup (hl x (by simp))
    obtain ⟨f1, f2, f3, f4, f5⟩ := addCorners_eq x.2 r.2 c0
    have hadd : c0.addShape x.1 x.2 = .ok
        { r.2.foldl (addCorners x.2) c0 with
          shapes := c0.shapes ++ [(x.1, x.2.inverse)]
          mesh := (r.2.foldl (addCorners x.2) c0).mesh.add (x.1.mesh.getTransformed x.2)
          bb := Box.new (r.2.foldl (addCorners x.2) c0).min (r.2.foldl (addCorners x.2) c0).max } := by
      unfold addShape
      rw [hr]; rfl
    generalize hc1 : ({ r.2.foldl (addCorners x.2) c0 with
          shapes := c0.shapes ++ [(x.1, x.2.inverse)]
          mesh := (r.2.foldl (addCorners x.2) c0).mesh.add (x.1.mesh.getTransformed x.2)
          bb := Box.new (r.2.foldl (addCorners x.2) c0).min (r.2.foldl (addCorners x.2) c0).max }
          : Composite) = c1 at hadd
    obtain ⟨c, g1, g2, g3, g4, g5, g6⟩ := ih (fun y hy => hl y (by simp [hy])) c1
    rw [he] at f4 f5
    have e1 : c1.shapes = c0.shapes ++ [(x.1, x.2.inverse)] := by rw [← hc1]
    have e2 : (c1.min, c1.max) = Shape.boundsOf (posedCorners x.2 (trianglesOf x.1.mesh)) c0.min c0.max := by
      rw [← hc1]; exact f4
    have e3 : c1.maxRadius = lenMax (posedCorners x.2 (trianglesOf x.1.mesh)) c0.maxRadius := by
      rw [← hc1]; exact f5
    have e4 : c1.mesh = c0.mesh.add (x.1.mesh.getTransformed x.2) := by rw [← hc1]; simp only [f2]
    have e5 : c1.bb = Box.new c1.min c1.max := by rw [← hc1]
    refine ⟨c, ?_, ?_, ?_, ?_, ?_, ?_⟩
    · rw [List.foldlM_cons, hadd]; exact g1
    · rw [g2, e1]; simp
    · rw [posedTriangles_cons, boundsOf_append, ← e2]; exact g3
    · rw [posedTriangles_cons, lenMax, List.foldl_append]
      rw [g4, e3]; rfl
    · rw [g5, e4]; rfl
    · rw [g6]
      simp only [reduceCtorEq, if_false]
      split_ifs with h
      · subst h
        have : (c.min, c.max) = (c1.min, c1.max) := g3
        rw [e5]; simp only [Prod.mk.injEq] at this; rw [this.1, this.2]
      · rfl

theorem lenMax_spec (ps : List Vec3) (a : ℝ) :
    a ≤ lenMax ps a ∧ (∀ p ∈ ps, p.length ≤ lenMax ps a) ∧
    (lenMax ps a = a ∨ ∃ p ∈ ps, p.length = lenMax ps a) := by
  induction ps generalizing a with
  | nil => simp [lenMax]
  | cons p ps ih =>
    obtain ⟨h1, h2, h3⟩ := ih (Max.max a p.length)
    have e : lenMax (p :: ps) a = lenMax ps (Max.max a p.length) := rfl
    rw [e]
    refine ⟨(le_max_left _ _).trans h1, ?_, ?_⟩
    · intro q hq
      rcases List.mem_cons.1 hq with rfl | hq
      · exact (le_max_right _ _).trans h1
      · exact h2 q hq
    · rcases h3 with h3 | ⟨q, hq, h3⟩
      · rcases max_choice a p.length with h | h
        · left; rw [h3, h]
        · right; exact ⟨p, by simp, by rw [h3, h]⟩
      · right; exact ⟨q, by simp [hq], h3⟩

/-- `anyOf` over queries that do not fail. -/
theorem anyOf_total {α : Type _} (f : α → Exec Bool) (l : List α) (h : ∀ a ∈ l, ∃ b, f a = .ok b) :
    ∃ b, anyOf f l = .ok b ∧ (b = true ↔ ∃ a ∈ l, f a = .ok true) := by
  induction l with
  | nil => exact ⟨false, rfl, by simp⟩
  | cons a l ih =>
    obtain ⟨b, hb⟩ := h a (by simp)
    obtain ⟨c, hc, hcc⟩ := ih (fun x hx => h x (by simp [hx]))
    cases b
    · refine ⟨c, by simp [anyOf, hb, bind, Except.bind, hc], ?_⟩
      rw [hcc]; simp [hb]
    · exact ⟨true, by simp [anyOf, hb, bind, Except.bind, pure, Except.pure], by simp [hb]⟩

/-- The bounding box of a composite with at least one part. -/
theorem bb_eq {l : List (ShapeObj × Transform3)} {c : Composite} (hl : ∀ x ∈ l, GoodMesh x.1.mesh)
    (h : build l = .ok c) :
    (∀ p ∈ cornersOf (posedTriangles l), InBox c.bb.lo c.bb.hi p) ∧
    (l ≠ [] → (c.bb.lo, c.bb.hi) =
      Shape.boundsOf (cornersOf (posedTriangles l)) (.all 1e10) (.all (-1e10))) ∧
    c.shapes = l.map (fun x => (x.1, x.2.inverse)) ∧
    c.bb = Box.new c.bb.lo c.bb.hi := by
  obtain ⟨c', h1, h2, h3, h4, h5, h6⟩ := build_from l hl new
  have : c = c' := by
    unfold build at h; rw [h] at h1; simpa using h1
  subst this
  have hb : l ≠ [] → (c.bb.lo, c.bb.hi) =
      Shape.boundsOf (cornersOf (posedTriangles l)) (.all 1e10) (.all (-1e10)) := by
    intro hne
    rw [if_neg hne] at h6
    rw [h6]; exact h3
  refine ⟨?_, hb, by rw [h2]; simp [new], ?_⟩
  · intro p hp
    have hne : l ≠ [] := by rintro rfl; simp [posedTriangles, cornersOf] at hp
    have e := hb hne
    have := (boundsOf_spec (cornersOf (posedTriangles l)) (.all 1e10) (.all (-1e10))).2.1 p hp
    rw [← e] at this
    exact this
  · by_cases hne : l = []
    · rw [if_pos hne] at h6; rw [h6]; rfl
    · rw [if_neg hne] at h6; rw [h6]; rfl

end Composite

/-! ## Hulls -/

theorem Spec.InHull.mem {S : List Vec3} {q : Vec3} (h : q ∈ S) : InHull S q := fun _ _ _ _ hx => hx q h

theorem Spec.InHull.mono {S S' : List Vec3} {q : Vec3} (h : InHull S q) (hs : ∀ x ∈ S, x ∈ S') :
    InHull S' q := fun a b c d hx => h a b c d (fun x hxs => hx x (hs x hxs))

theorem Spec.InHull.apply {S : List Vec3} {q : Vec3} (T : Transform3) (h : InHull S q) :
    InHull (S.map T.apply) (T.apply q) := by
  intro a b c d hx
  have := h (a * T.R.xx + b * T.R.yx + c * T.R.zx) (a * T.R.xy + b * T.R.yy + c * T.R.zy)
    (a * T.R.xz + b * T.R.yz + c * T.R.zz) (d - (a * T.t.x + b * T.t.y + c * T.t.z)) (by
      intro x hxs
      have := hx (T.apply x) (List.mem_map_of_mem hxs)
      simp only [Transform3.apply, Mat3.mulVec, Vec3.add_x, Vec3.add_y, Vec3.add_z] at this
      linarith)
  simp only [Transform3.apply, Mat3.mulVec, Vec3.add_x, Vec3.add_y, Vec3.add_z]
  linarith

theorem Spec.InHull.inBox {S : List Vec3} {q lo hi : Vec3} (h : InHull S q) (hs : ∀ x ∈ S, InBox lo hi x) :
    InBox lo hi q := by
  refine ⟨?_, ?_, ?_, ?_, ?_, ?_⟩
  · have := h (-1) 0 0 (-lo.x) (fun x hx => by linarith [(hs x hx).1]); linarith
  · have := h 1 0 0 hi.x (fun x hx => by linarith [(hs x hx).2.1]); linarith
  · have := h 0 (-1) 0 (-lo.y) (fun x hx => by linarith [(hs x hx).2.2.1]); linarith
  · have := h 0 1 0 hi.y (fun x hx => by linarith [(hs x hx).2.2.2.1]); linarith
  · have := h 0 0 (-1) (-lo.z) (fun x hx => by linarith [(hs x hx).2.2.2.2.1]); linarith
  · have := h 0 0 1 hi.z (fun x hx => by linarith [(hs x hx).2.2.2.2.2]); linarith

theorem Spec.InHull.nonempty {S : List Vec3} {q : Vec3} (h : InHull S q) : ∃ x, x ∈ S := by
  by_contra hn
  push Not at hn
  have := h 0 0 0 (-1) (fun x hx => absurd hx (hn x))
  linarith

theorem box_trianglesOf (lo hi : Vec3) : ∀ p, p ∈ cornersOf (trianglesOf (Box.new lo hi).mesh) ↔
    p ∈ corners8 lo hi := by
  intro p
  unfold trianglesOf
  rw [box_soup]
  simp only [Option.getD_some, cornersOf, corners8, List.flatMap_cons, List.flatMap_nil, List.mem_append,
    List.mem_cons, List.not_mem_nil, or_false]
  constructor
  · rintro h
    casesm* _ ∨ _ <;> subst_vars <;> simp
  · rintro h
    casesm* _ ∨ _ <;> subst_vars <;> simp

theorem box_good (lo hi : Vec3) : GoodMesh (Box.new lo hi).mesh :=
  ⟨box_reachable lo hi, Mesh.valid_of_soup (box_soup lo hi)⟩

theorem box_hull {lo hi q : Vec3} (h : InBox lo hi q) :
    InHull (cornersOf (trianglesOf (Box.new lo hi).mesh)) q := by
  intro a b c d hx
  have := affine_le h a b c 0 d (fun x hx' => by
    have := hx x ((box_trianglesOf lo hi x).2 hx'); linarith)
  linarith

/-- A proper box reports nothing outside its mesh. -/
theorem box_within {lo hi : Vec3} (h : Proper lo hi) : WithinMesh (Box.new lo hi).toObj where
  good := box_good lo hi
  contains q hq := by
    simp only [Box.toObj, Except.ok.injEq] at hq
    exact box_hull ((C23_contains lo hi q).1.1 hq)
  sphere q R hR hq := by
    simp only [Box.toObj, Except.ok.injEq] at hq
    obtain ⟨x, hx, hd⟩ := ((C24_sphere lo hi q h R).1 hR).1 hq
    exact ⟨x, box_hull hx, hd⟩
  sphere0 q R hR hq := by
    simp only [Box.toObj, Except.ok.injEq] at hq
    exact box_hull (((C24_sphere lo hi q h R).2 hR).1 hq)
  total q R := ⟨⟨_, rfl⟩, ⟨_, rfl⟩⟩


/-! ## Rays -/

/-- Every box satisfies the ray-cast contract. -/
theorem box_candidate (b : Box) (r : Ray) (t0 : ℝ) : ∃ e, Candidate b.toObj r t0 e := by
  unfold Candidate Box.toObj Box.intersectRay
  simp only
  generalize ((b.bound r.sx).x - r.origin.x) * r.inv.x = a1
  generalize ((b.bound (!r.sx)).x - r.origin.x) * r.inv.x = a2
  generalize ((b.bound r.sy).y - r.origin.y) * r.inv.y = b1
  generalize ((b.bound (!r.sy)).y - r.origin.y) * r.inv.y = b2
  generalize ((b.bound r.sz).z - r.origin.z) * r.inv.z = c1
  generalize ((b.bound (!r.sz)).z - r.origin.z) * r.inv.z = c2
  by_cases h1 : a1 > b2 ∨ b1 > a2
  · exact ⟨none, fun t1 d0 => ⟨_, rfl, by simp [h1], by simp [h1]⟩⟩
  by_cases h2 : max b1 a1 > c2 ∨ c1 > min b2 a2
  · exact ⟨none, fun t1 d0 => ⟨_, rfl, by simp only [h1, h2, if_true, if_false]; simp, by simp only [h1, h2, if_true, if_false]; simp⟩⟩
  by_cases h3 : t0 < min c2 (min b2 a2)
  · refine ⟨some (max c1 (max b1 a1)), fun t1 d0 => ⟨_, rfl, ?_, ?_⟩⟩
    · simp only [h1, h2, h3, if_false, true_and, decide_eq_true_eq, Option.some.injEq, exists_eq_left']
    · simp only [h1, h2, if_false]; simp
  · refine ⟨none, fun t1 d0 => ⟨_, rfl, ?_, ?_⟩⟩
    · simp only [h1, h2, h3, if_false, false_and, decide_eq_true_eq]; simp
    · simp only [h1, h2, h3, if_false, false_and]; simp

namespace Composite

theorem mem_posed {l : List (ShapeObj × Transform3)} {x : ShapeObj × Transform3} (hx : x ∈ l)
    {y : Vec3} (hy : y ∈ (cornersOf (trianglesOf x.1.mesh)).map x.2.apply) :
    y ∈ cornersOf (posedTriangles l) := by
  unfold posedTriangles
  simp only [cornersOf, List.mem_flatMap]
  obtain ⟨z, hz, rfl⟩ := List.mem_map.1 hy
  simp only [cornersOf, List.mem_flatMap] at hz
  obtain ⟨t, ht, hz⟩ := hz
  refine ⟨_, ⟨x, hx, List.mem_map.2 ⟨t, ht, rfl⟩⟩, ?_⟩
  simp only [List.mem_cons, List.not_mem_nil, or_false] at hz ⊢
  rcases hz with rfl | rfl | rfl <;> simp

theorem addMeshes (l : List (ShapeObj × Transform3)) (hl : ∀ x ∈ l, GoodMesh x.1.mesh) (m : Mesh)
    (hm : GoodMesh m)
    (hn : m.points.length + (l.map fun x => x.1.mesh.points.length).sum ≤ 2 ^ 32) :
    let r := l.foldl (fun m x => m.add (x.1.mesh.getTransformed x.2)) m
    GoodMesh r ∧ trianglesOf r = trianglesOf m ++ posedTriangles l := by
  induction l generalizing m with
  | nil => simp [posedTriangles, hm]
  | cons x l ih =>
    have hx := hl x (by simp)
    have hn' : m.points.length + (x.1.mesh.getTransformed x.2).points.length ≤ 2 ^ 32 := by
      simp only [List.map_cons, List.sum_cons] at hn
      simp only [Mesh.getTransformed, List.length_map]
      omega
    obtain ⟨a1, a2⟩ := C12_add m (x.1.mesh.getTransformed x.2) _ _ (good_soup hm).1
      ((C14_transform x.1.mesh x.2 x.2 x.2).2.1 _ (good_soup hx).1) hn'
    have hg : GoodMesh (m.add (x.1.mesh.getTransformed x.2)) := ⟨hm.1.add, Mesh.valid_of_soup a2⟩
    obtain ⟨i1, i2⟩ := ih (fun y hy => hl y (by simp [hy])) _ hg (by
      rw [a1]
      simp only [List.map_cons, List.sum_cons] at hn
      simp only [Mesh.getTransformed, List.length_append, List.length_map]
      omega)
    refine ⟨i1, ?_⟩
    simp only [List.foldl_cons]
    rw [i2]
    have e : trianglesOf (m.add (x.1.mesh.getTransformed x.2)) = trianglesOf m ++ (trianglesOf x.1.mesh).map
        (fun c => (x.2.apply c.1, x.2.apply c.2.1, x.2.apply c.2.2)) := by
      conv_lhs => unfold trianglesOf
      rw [a2]; rfl
    rw [e]
    simp [posedTriangles]

theorem mesh_eq {l : List (ShapeObj × Transform3)} {c : Composite} (hl : ∀ x ∈ l, GoodMesh x.1.mesh)
    (hn : (l.map fun x => x.1.mesh.points.length).sum ≤ 2 ^ 32) (h : build l = .ok c) :
    GoodMesh c.mesh ∧ trianglesOf c.mesh = posedTriangles l := by
  obtain ⟨c', h1, h2, h3, h4, h5, h6⟩ := build_from l hl new
  have : c = c' := by
    unfold build at h; rw [h] at h1; simpa using h1
  subst this
  have hnew : GoodMesh new.mesh := ⟨⟨[], rfl⟩, by simp [Valid, new, Mesh.new, Mesh.invalidateCache]⟩
  obtain ⟨a, b⟩ := addMeshes l hl new.mesh hnew (by simpa [new, Mesh.new, Mesh.invalidateCache] using hn)
  rw [← h5] at a b
  refine ⟨a, ?_⟩
  rw [b]
  simp [trianglesOf, new, Mesh.new, Mesh.invalidateCache, soup]

theorem bb_perm {l l' : List (ShapeObj × Transform3)} {c c' : Composite} (hp : l.Perm l')
    (hm : ∀ x ∈ l, GoodMesh x.1.mesh) (h : build l = .ok c) (h' : build l' = .ok c') :
    (c.bb.lo, c.bb.hi) = (c'.bb.lo, c'.bb.hi) := by
  have hm' : ∀ x ∈ l', GoodMesh x.1.mesh := fun x hx => hm x (hp.mem_iff.2 hx)
  obtain ⟨-, hb, -, -⟩ := bb_eq hm h
  obtain ⟨-, hb', -, -⟩ := bb_eq hm' h'
  by_cases hne : l = []
  · subst hne
    have : l' = [] := hp.nil_eq.symm
    subst this
    rw [h] at h'
    simp only [Except.ok.injEq] at h'
    rw [h']
  · have hne' : l' ≠ [] := by rintro rfl; exact hne hp.eq_nil
    rw [hb hne, hb' hne']
    have hperm : (cornersOf (posedTriangles l)).Perm (cornersOf (posedTriangles l')) := by
      unfold cornersOf posedTriangles
      exact (hp.flatMap_right _).flatMap_right _
    unfold Shape.boundsOf
    haveI : RightCommutative (fun (b : Vec3 × Vec3) (p : Vec3) =>
        ((⟨Min.min p.x b.1.x, Min.min p.y b.1.y, Min.min p.z b.1.z⟩ : Vec3),
         (⟨Max.max p.x b.2.x, Max.max p.y b.2.y, Max.max p.z b.2.z⟩ : Vec3))) := ⟨by
      intro b p q
      simp only [min_left_comm, max_left_comm]⟩
    exact hperm.foldl_eq _

theorem candidate_unique {o : ShapeObj} {r : Ray} {t0 : ℝ} {e e' : Option ℝ} (h : Candidate o r t0 e)
    (h' : Candidate o r t0 e') : e = e' := by
  have key : ∀ {e e' : Option ℝ}, Candidate o r t0 e → Candidate o r t0 e' → ∀ x, e = some x →
      e' = some x := by
    intro e e' h h' x hx
    obtain ⟨res, a1, a2, a3⟩ := h (x + 1) 0
    obtain ⟨res', b1, b2, b3⟩ := h' (x + 1) 0
    have : res = res' := by rw [a1] at b1; simpa using b1
    subst this
    have ht := a2.2 ⟨x, hx, by linarith⟩
    rw [b3 ht, ← a3 ht, hx]
  cases e with
  | some x => exact (key h h' x rfl).symm
  | none =>
    cases e' with
    | none => rfl
    | some y => exact key h' h y rfl

theorem rot_cancel {T : Transform3} (h : Rigid T) (u : Vec3) :
    T.R.mulVec (T.inverse.R.mulVec u) = u := by
  obtain ⟨r1, r2, r3, r4, r5, r6⟩ := orth_rows h
  ext <;> simp only [Transform3.inverse, Mat3.mulVec, Mat3.transpose]
  · linear_combination u.x * r1 + u.y * r4 + u.z * r5
  · linear_combination u.x * r4 + u.y * r2 + u.z * r6
  · linear_combination u.x * r5 + u.y * r6 + u.z * r3

theorem rot_unit {T : Transform3} (h : Rigid T) (u : Vec3) :
    (T.inverse.R.mulVec u).x ^ 2 + (T.inverse.R.mulVec u).y ^ 2 + (T.inverse.R.mulVec u).z ^ 2 =
      u.x ^ 2 + u.y ^ 2 + u.z ^ 2 := by
  obtain ⟨r1, r2, r3, r4, r5, r6⟩ := orth_rows h
  simp only [Transform3.inverse, Mat3.mulVec, Mat3.transpose]
  linear_combination u.x ^ 2 * r1 + u.y ^ 2 * r2 + u.z ^ 2 * r3 + 2 * u.x * u.y * r4 +
    2 * u.x * u.z * r5 + 2 * u.y * u.z * r6

theorem rayLoop_map (r : Ray) (t0 : ℝ) (l : List (ShapeObj × Transform3))
    (E : ShapeObj × Transform3 → Option ℝ)
    (hE : ∀ x ∈ l, Candidate x.1
      (Ray.new (x.2.inverse.apply r.origin) (x.2.inverse.R.mulVec r.direction)) t0 (E x))
    (hit : Bool) (md : ℝ) :
    ∃ res, rayLoop r t0 (l.map fun x => (x.1, x.2.inverse)) hit md = .ok res ∧
      (res.1 = true ↔ hit = true ∨ ∃ x ∈ l, ∃ d, E x = some d ∧ d < md) ∧
      res.2 ≤ md ∧ (∀ x ∈ l, ∀ d, E x = some d → res.2 ≤ d) ∧
      (res.2 = md ∨ ∃ x ∈ l, E x = some res.2) ∧
      (res.1 = true → hit = false → res.2 < md) := by
  induction l generalizing hit md with
  | nil => exact ⟨(hit, md), rfl, by simp, le_rfl, by simp, by simp, by simp +contextual⟩
  | cons x l ih =>
    obtain ⟨⟨h, d⟩, h1, h2, h3⟩ := hE x (by simp) md 0
    have hl := fun y hy => hE y (List.mem_cons_of_mem x hy)
    cases hh : h with
    | true =>
      subst hh
      obtain ⟨y, hy1, hy2⟩ := h2.1 rfl
      have hd : E x = some d := h3 rfl
      have : y = d := by rw [hy1] at hd; simpa using hd
      subst this
      obtain ⟨res, g1, g2, g3, g4, g5, g6⟩ := ih hl true y
      refine ⟨res, ?_, ?_, by linarith, ?_, ?_, fun _ _ => by linarith⟩
      · simp [rayLoop, h1, bind, Except.bind, g1]
      · rw [g2]
        exact ⟨fun _ => Or.inr ⟨x, by simp, y, hd, hy2⟩, fun _ => Or.inl rfl⟩
      · intro z hz d' hd'
        rcases List.mem_cons.1 hz with rfl | hz
        · rw [hd] at hd'; simp only [Option.some.injEq] at hd'; linarith
        · exact g4 z hz d' hd'
      · rcases g5 with g5 | ⟨z, hz, g5⟩
        · right; exact ⟨x, by simp, by rw [g5]; exact hd⟩
        · right; exact ⟨z, by simp [hz], g5⟩
    | false =>
      subst hh
      have hno : ∀ y, E x = some y → md ≤ y := by
        intro y hy
        by_contra hc
        have := h2.2 ⟨y, hy, not_le.1 hc⟩
        simp at this
      obtain ⟨res, g1, g2, g3, g4, g5, g6⟩ := ih hl hit md
      refine ⟨res, ?_, ?_, g3, ?_, ?_, g6⟩
      · simp [rayLoop, h1, bind, Except.bind, g1]
      · rw [g2]
        constructor
        · rintro (h | ⟨z, hz, d', a, b⟩)
          · exact Or.inl h
          · exact Or.inr ⟨z, by simp [hz], d', a, b⟩
        · rintro (h | ⟨z, hz, d', a, b⟩)
          · exact Or.inl h
          · rcases List.mem_cons.1 hz with rfl | hz
            · exact absurd b (not_lt.2 (hno d' a))
            · exact Or.inr ⟨z, hz, d', a, b⟩
      · intro z hz d' hd'
        rcases List.mem_cons.1 hz with rfl | hz
        · exact g3.trans (hno d' hd')
        · exact g4 z hz d' hd'
      · rcases g5 with g5 | ⟨z, hz, g5⟩
        · left; exact g5
        · right; exact ⟨z, by simp [hz], g5⟩

end Composite

end Geo
