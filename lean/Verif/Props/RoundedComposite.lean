import Verif.Lemmas.RoundedCompositeUse
import Verif.Props.RoundedBox
import Verif.Props.Composite

/-!
# Composites in floating point arithmetic
-/

namespace Geo

open Spec Matrix Rounded

/-- Without rounding the functions are those of `Model/Composite`. -/
theorem C126_exact (l : List (ShapeObj × Transform3)) (c : Composite) (b : Box) (p : Vec3) (R : ℝ) :
    Rounded.build id l = Composite.build l ∧ Rounded.compositeContains id c p = c.contains p ∧
    Rounded.compositeSphere id c p R = c.intersectSphere p R ∧ Rounded.boxObj id id b = b.toObj :=
  ⟨rfl, rfl, rfl, rfl⟩

/-- C126: what a composite says about its extent. Its bounding box contains every part and is the smallest such box, its radius
bounds every part and is the smallest such bound, all up to the error of one application of a pose: the errors do not add up
along the sequence of `addShape` calls. -/
theorem C126_frame {u : ℝ} {rnd : ℝ → ℝ} (h : RelErr u rnd) (hu : u ≤ 1 / 1000) {δ ρ τ : ℝ} (hδ : δ ≤ 1 / 10) (hρ : 0 ≤ ρ)
    (hs : 2 * (ρ + τ) ≤ 1e10) (l : List (ShapeObj × Transform3)) (hl : ∀ x ∈ l, PartOk δ ρ τ x) {m : ℝ}
    (hm : m = 8 * u * (ρ + τ)) :
    ∃ c, Rounded.build rnd l = .ok c ∧
      (∀ x ∈ l, ∀ y, InHull (cornersOf (trianglesOf x.1.mesh)) y →
        InBox ⟨c.bb.lo.x - m, c.bb.lo.y - m, c.bb.lo.z - m⟩ ⟨c.bb.hi.x + m, c.bb.hi.y + m, c.bb.hi.z + m⟩ (x.2.apply y) ∧
        len (V (x.2.apply y)) ≤ c.getMaxRadius + 12 * u * (ρ + τ)) ∧
      (cornersOf (posedTriangles l) ≠ [] →
        (∀ lo hi, (∀ p ∈ cornersOf (posedTriangles l), InBox lo hi p) → ∀ p, InBox c.bb.lo c.bb.hi p →
          InBox ⟨lo.x - m, lo.y - m, lo.z - m⟩ ⟨hi.x + m, hi.y + m, hi.z + m⟩ p) ∧
        ∃ p ∈ cornersOf (posedTriangles l), c.getMaxRadius ≤ len (V p) + 12 * u * (ρ + τ)) := by
  have hu0 := Rounded.relErr_nonneg h
  obtain ⟨c, hc, -, -, hbb, htight, hrad, -⟩ := Rounded.build_eq (rnd := rnd) l (fun x hx => (hl x hx).good)
  obtain ⟨r0, r1, r2⟩ := Rounded.lenMax_spec (rnd := rnd) (Rounded.partCorners rnd l) 0
  rw [← hrad] at r0 r1 r2
  refine ⟨c, hc, ?_, ?_⟩
  · intro x hx y hy
    refine ⟨Rounded.hull_inBox h hu hδ hbb hx (hl x hx) hy hm, ?_⟩
    apply Rounded.hull_len (hy.apply x.2)
    intro z hz
    obtain ⟨a, ha, rfl⟩ := List.mem_map.1 hz
    have h1 := Rounded.corner_length h hu hδ hρ (hl x hx) ha
    have h2 := r1 _ (Rounded.mem_partCorners hx ha)
    rw [abs_le] at h1
    show _ ≤ c.maxRadius + _
    linarith [h1.1]
  · intro hne
    obtain ⟨p0, hp0⟩ := List.exists_mem_of_ne_nil _ hne
    obtain ⟨x0, hx0, c0, hc0, e0⟩ := Rounded.mem_posed_iff.1 hp0
    have ht0 : 0 ≤ τ := (len_nonneg _).trans (hl x0 hx0).shift
    have hm0 : 0 ≤ m := by rw [hm]; positivity
    have hl0 := (Rounded.corner_len h hu hδ (hl x0 hx0) hc0).1
    rw [e0] at hl0
    obtain ⟨l1, l2, l3⟩ := Rounded.len_coord p0
    rw [abs_le] at l1 l2 l3
    have hpne : Rounded.partCorners rnd l ≠ [] := List.ne_nil_of_mem (Rounded.mem_partCorners (rnd := rnd) hx0 hc0)
    constructor
    · intro lo hi hin p hp
      obtain ⟨g1, g2, g3, g4, g5, g6⟩ := htight hpne ⟨lo.x - m, lo.y - m, lo.z - m⟩ ⟨hi.x + m, hi.y + m, hi.z + m⟩ (by
          intro z hz
          obtain ⟨x, hx, hz⟩ := List.mem_flatMap.1 hz
          obtain ⟨a, ha, rfl⟩ := List.mem_map.1 hz
          obtain ⟨b1, b2, b3, b4, b5, b6⟩ := hin _ (Rounded.mem_posed_iff.2 ⟨x, hx, a, ha, rfl⟩)
          obtain ⟨e1, e2, e3⟩ := Rounded.corner_err h hu hδ (hl x hx) ha
          rw [← hm, abs_le] at e1 e2 e3
          refine ⟨?_, ?_, ?_, ?_, ?_, ?_⟩ <;> simp only <;> linarith) (by
          obtain ⟨b1, b2, b3, b4, b5, b6⟩ := hin p0 hp0
          refine ⟨?_, ?_, ?_, ?_, ?_, ?_⟩ <;> simp only <;> linarith)
      obtain ⟨p1, p2, p3, p4, p5, p6⟩ := hp
      exact ⟨g1.trans p1, p2.trans g4, g2.trans p3, p4.trans g5, g3.trans p5, p6.trans g6⟩
    · rcases r2 with r2 | ⟨z, hz, r2⟩
      · refine ⟨p0, hp0, ?_⟩
        show c.maxRadius ≤ _
        rw [r2]
        have := len_nonneg (V p0)
        positivity
      · obtain ⟨x, hx, hz⟩ := List.mem_flatMap.1 hz
        obtain ⟨a, ha, rfl⟩ := List.mem_map.1 hz
        refine ⟨_, Rounded.mem_posed_iff.2 ⟨x, hx, a, ha, rfl⟩, ?_⟩
        have h1 := Rounded.corner_length h hu hδ hρ (hl x hx) ha
        rw [abs_le] at h1
        show c.maxRadius ≤ _
        linarith [h1.2]

/-- C126 case: a unit cube turned by a right angle about z and moved by (3, 0, 0) is a part to which the theorems apply. -/
example : PartOk 0 2 3 (Rounded.boxObj toDouble toFloat (Box.new ⟨0, 0, 0⟩ ⟨1, 1, 1⟩),
    ⟨⟨0, -1, 0, 1, 0, 0, 0, 0, 1⟩, ⟨3, 0, 0⟩⟩) := by
  have small : ∀ {v : Vec3} {k : ℝ}, 0 ≤ k → v.x ^ 2 + v.y ^ 2 + v.z ^ 2 ≤ k ^ 2 → len (V v) ≤ k := by
    intro v k hk h
    simp only [len, V, Fin.sum_univ_three]
    rw [Real.sqrt_le_left hk]
    simpa using h
  refine ⟨box_good _ _, ?_, ?_, small (by norm_num) (by norm_num), fun q R => ⟨⟨_, rfl⟩, ⟨_, rfl⟩⟩⟩
  · intro i j
    fin_cases i <;> fin_cases j <;> simp [M, Matrix.mul_apply, Fin.sum_univ_three]
  · intro c hc
    obtain ⟨h1, h2, h3, h4, h5, h6⟩ := inBox_corners (lo := ⟨0, 0, 0⟩) (hi := ⟨1, 1, 1⟩) (by norm_num [Proper]) c
      ((box_trianglesOf _ _ c).1 hc)
    simp only at h1 h2 h3 h4 h5 h6
    exact small (by norm_num) (by nlinarith)

/-- C126: the mesh of a composite has the triangles of the parts, in order, with every corner off by at most the error of one
application of a pose. It is a proper mesh again, so a composite can be a part of a composite. -/
theorem C126_mesh {u : ℝ} {rnd : ℝ → ℝ} (h : RelErr u rnd) (hu : u ≤ 1 / 1000) {δ ρ τ : ℝ} (hδ : δ ≤ 1 / 10)
    (l : List (ShapeObj × Transform3)) (hl : ∀ x ∈ l, PartOk δ ρ τ x)
    (hn : (l.map fun x => x.1.mesh.points.length).sum ≤ 2 ^ 32) :
    ∃ c, Rounded.build rnd l = .ok c ∧ GoodMesh c.mesh ∧
      List.Forall₂ (fun s t => Spec.dist s.1 t.1 ≤ 8 * u * (ρ + τ) ∧ Spec.dist s.2.1 t.2.1 ≤ 8 * u * (ρ + τ) ∧
        Spec.dist s.2.2 t.2.2 ≤ 8 * u * (ρ + τ)) (trianglesOf c.mesh) (posedTriangles l) := by
  obtain ⟨c, hc, -, -, -, -, -, hmesh⟩ := Rounded.build_eq (rnd := rnd) l (fun x hx => (hl x hx).good)
  have hnew : GoodMesh Mesh.new := ⟨⟨[], rfl⟩, by simp [Valid, Mesh.new, Mesh.invalidateCache]⟩
  obtain ⟨g1, g2⟩ := Rounded.addMeshes (rnd := rnd) l (fun x hx => (hl x hx).good) Mesh.new hnew (by
    simpa [Mesh.new, Mesh.invalidateCache] using hn)
  rw [← hmesh] at g1 g2
  refine ⟨c, hc, g1, ?_⟩
  have e : trianglesOf Mesh.new = [] := by simp [trianglesOf, Mesh.new, Mesh.invalidateCache, soup]
  rw [g2, e, List.nil_append]
  clear hmesh g1 g2 hc hn
  induction l with
  | nil => exact List.Forall₂.nil
  | cons x l ih =>
    have i := ih (fun y hy => hl y (by simp [hy]))
    have hx := hl x (by simp)
    unfold Rounded.partTriangles posedTriangles at *
    simp only [List.flatMap_cons]
    refine List.rel_append ?_ i
    rw [List.forall₂_map_left_iff, List.forall₂_map_right_iff, List.forall₂_same]
    intro t ht
    have m1 : ∀ v ∈ [t.1, t.2.1, t.2.2], v ∈ cornersOf (trianglesOf x.1.mesh) := fun v hv =>
      List.mem_flatMap.2 ⟨t, ht, hv⟩
    simp only [Rounded.dist_eq_len]
    exact ⟨(Rounded.corner_len h hu hδ hx (m1 _ (by simp))).2, (Rounded.corner_len h hu hδ hx (m1 _ (by simp))).2,
      (Rounded.corner_len h hu hδ hx (m1 _ (by simp))).2⟩

/-- C126: containment. A point around which a part contains everything within `ε` is contained, a point within `ε` of which no
part contains anything is not. -/
theorem C126_contains {u : ℝ} {rnd : ℝ → ℝ} (h : RelErr u rnd) (hu : u ≤ 1 / 1000) {δ ρ τ : ℝ} (hδ : δ ≤ 1 / 10) (hρ : 0 ≤ ρ)
    (l : List (ShapeObj × Transform3)) (hl : ∀ x ∈ l, PartOk δ ρ τ x) :
    ∃ c, Rounded.build rnd l = .ok c ∧ ∀ p ε, ε = (24 * u + 5 * δ) * (ρ + τ + len (V p)) →
      ((∃ x ∈ l, (∀ q, x.1.contains q = .ok true → InHull (cornersOf (trianglesOf x.1.mesh)) q) ∧
          ∀ p', Spec.dist p p' ≤ ε → Posed x.2 (fun q => x.1.contains q = .ok true) p') →
        Rounded.compositeContains rnd c p = .ok true) ∧
      ((∀ x ∈ l, ∀ p', Spec.dist p p' ≤ ε → ¬ Posed x.2 (fun q => x.1.contains q = .ok true) p') →
        Rounded.compositeContains rnd c p = .ok false) := by
  have hu0 := Rounded.relErr_nonneg h
  obtain ⟨c, hc, hsh, hbox, hbb, -⟩ := Rounded.build_eq (rnd := rnd) l (fun x hx => (hl x hx).good)
  refine ⟨c, hc, fun p ε hε => ?_⟩
  obtain ⟨a1, a2⟩ := Rounded.any_parts h hu hδ hl hρ (p := p) hε.ge (fun o q => o.contains q)
    (fun x hx q => ((hl x hx).total q 0).1)
  unfold Rounded.compositeContains
  rw [hsh]
  constructor
  · rintro ⟨x, hx, hin, hall⟩
    have hin' : InBox c.bb.lo c.bb.hi p := by
      have h0 := Rounded.delta_nonneg (hl x hx).orth
      have ht0 : 0 ≤ τ := (len_nonneg _).trans (hl x hx).shift
      have hp0 := len_nonneg (V p)
      refine Rounded.ball_inBox h hu hδ hbb hx (hl x hx) (e := ε) ?_ (by rw [hε]; positivity) ?_
      · rw [hε]
        have := mul_le_mul (show 8 * u ≤ 24 * u + 5 * δ by linarith) (show ρ + τ ≤ ρ + τ + len (V p) by linarith)
          (by positivity) (by positivity)
        exact this
      · intro p' hp'
        obtain ⟨q, hq, hc⟩ := hall p' hp'
        exact ⟨q, hq, hin q hc⟩
    have : c.bb.contains p = true := by rw [hbox]; exact (C23_contains _ _ p).1.2 hin'
    rw [this]
    exact a1 ⟨x, hx, hall⟩
  · intro hn
    split_ifs
    · rfl
    · exact a2 hn

/-- C126: the sphere test. If a part within reach reports the sphere wherever its centre is within `ε`, the composite does; if no
part does so for a centre within `ε`, the composite does not. -/
theorem C126_sphere {u : ℝ} {rnd : ℝ → ℝ} (h : RelErr u rnd) (hu : u ≤ 1 / 1000) {δ ρ τ : ℝ} (hδ : δ ≤ 1 / 10) (hρ : 0 ≤ ρ)
    (hs : 2 * (ρ + τ) ≤ 1e10) (l : List (ShapeObj × Transform3)) (hl : ∀ x ∈ l, PartOk δ ρ τ x) :
    ∃ c, Rounded.build rnd l = .ok c ∧ ∀ p R ε, ε = (24 * u + 5 * δ) * (ρ + τ + len (V p)) →
      (0 < R → (∃ x ∈ l, (∃ y, InHull (cornersOf (trianglesOf x.1.mesh)) y ∧
            (1 + 4 * u) * Spec.dist p (x.2.apply y) + 30 * u * (ρ + τ) ≤ R) ∧
          ∀ p', Spec.dist p p' ≤ ε → Posed x.2 (fun q => x.1.sphere q R = .ok true) p') →
        Rounded.compositeSphere rnd c p R = .ok true) ∧
      (R ≤ 0 → (∃ x ∈ l, (∀ q, x.1.sphere q R = .ok true → InHull (cornersOf (trianglesOf x.1.mesh)) q) ∧
          ∀ p', Spec.dist p p' ≤ ε → Posed x.2 (fun q => x.1.sphere q R = .ok true) p') →
        Rounded.compositeSphere rnd c p R = .ok true) ∧
      ((∀ x ∈ l, ∀ p', Spec.dist p p' ≤ ε → ¬ Posed x.2 (fun q => x.1.sphere q R = .ok true) p') →
        Rounded.compositeSphere rnd c p R = .ok false) := by
  have hu0 := Rounded.relErr_nonneg h
  obtain ⟨c, hc, hsh, hbox, hbb, htight, -⟩ := Rounded.build_eq (rnd := rnd) l (fun x hx => (hl x hx).good)
  refine ⟨c, hc, fun p R ε hε => ?_⟩
  obtain ⟨a1, a2⟩ := Rounded.any_parts h hu hδ hl hρ (p := p) hε.ge (fun o q => o.sphere q R)
    (fun x hx q => ((hl x hx).total q R).2)
  unfold Rounded.compositeSphere
  rw [hsh]
  refine ⟨?_, ?_, ?_⟩
  · rintro hR ⟨x, hx, ⟨y, hy, hd⟩, hall⟩
    have ht0 : 0 ≤ τ := (len_nonneg _).trans (hl x hx).shift
    obtain ⟨m, hm⟩ : ∃ m, m = 8 * u * (ρ + τ) := ⟨_, rfl⟩
    have hm0 : 0 ≤ m := by rw [hm]; positivity
    have hm1 : m ≤ 0.008 * (ρ + τ) := by
      rw [hm]; exact mul_le_mul_of_nonneg_right (by linarith) (by positivity)
    obtain ⟨k, hk⟩ : ∃ k, k = 1.16 * (ρ + τ) := ⟨_, rfl⟩
    have near : ∀ z ∈ Rounded.partCorners rnd l, InBox ⟨-k, -k, -k⟩ ⟨k, k, k⟩ z := by
      intro z hz
      obtain ⟨x, hx, hz⟩ := List.mem_flatMap.1 hz
      obtain ⟨a, ha, rfl⟩ := List.mem_map.1 hz
      obtain ⟨h1, h2⟩ := Rounded.corner_len h hu hδ (hl x hx) ha
      have h3 := len_add (V (Rounded.apply rnd x.2 a) - V (x.2.apply a)) (V (x.2.apply a))
      rw [sub_add_cancel] at h3
      rw [← hm] at h2
      have h4 : len (V (Rounded.apply rnd x.2 a)) ≤ k := by rw [hk]; linarith
      obtain ⟨l1, l2, l3⟩ := Rounded.len_coord (Rounded.apply rnd x.2 a)
      rw [abs_le] at l1 l2 l3
      refine ⟨?_, ?_, ?_, ?_, ?_, ?_⟩ <;> simp only <;> linarith
    obtain ⟨a, ha⟩ := hy.nonempty
    have hz := Rounded.mem_partCorners (rnd := rnd) hx ha
    obtain ⟨b1, b2, b3, b4, b5, b6⟩ := hbb _ hz
    have hp : Proper c.bb.lo c.bb.hi := ⟨b1.trans b2, b3.trans b4, b5.trans b6⟩
    obtain ⟨n1, n2, n3, n4, n5, n6⟩ := near _ hz
    simp only at n1 n2 n3 n4 n5 n6
    have hk1 : k ≤ 1e10 := by rw [hk]; linarith
    obtain ⟨g1, g2, g3, g4, g5, g6⟩ := htight (List.ne_nil_of_mem hz) ⟨-k, -k, -k⟩ ⟨k, k, k⟩ near (by
      refine ⟨?_, ?_, ?_, ?_, ?_, ?_⟩ <;> simp only <;> linarith)
    simp only at g1 g2 g3 g4 g5 g6
    have B1 : |c.bb.lo.x| ≤ k ∧ |c.bb.lo.y| ≤ k ∧ |c.bb.lo.z| ≤ k := by
      refine ⟨abs_le.2 ⟨?_, ?_⟩, abs_le.2 ⟨?_, ?_⟩, abs_le.2 ⟨?_, ?_⟩⟩ <;> linarith
    have B2 : |c.bb.hi.x| ≤ k ∧ |c.bb.hi.y| ≤ k ∧ |c.bb.hi.z| ≤ k := by
      refine ⟨abs_le.2 ⟨?_, ?_⟩, abs_le.2 ⟨?_, ?_⟩, abs_le.2 ⟨?_, ?_⟩⟩ <;> linarith
    obtain ⟨w, hw, hwd⟩ := Rounded.clamp_near hp (Rounded.hull_inBox h hu hδ hbb hx (hl x hx) hy hm) hm0
    have tri : Spec.dist p w ≤ Spec.dist p (x.2.apply y) + Spec.dist (x.2.apply y) w := by
      simp only [Rounded.dist_eq_len]
      have := len_add (V p - V (x.2.apply y)) (V (x.2.apply y) - V w)
      rwa [sub_add_sub_cancel] at this
    have : Rounded.boxSphere rnd c.bb p R = true := by
      rw [hbox]
      refine ((C122_sphere h hu hp B1 B2 p R).1 hR).2 ⟨w, hw, ?_⟩
      have t1 : (1 + 4 * u) * Spec.dist p w ≤ (1 + 4 * u) * (Spec.dist p (x.2.apply y) + 1.7321 * m) :=
        mul_le_mul_of_nonneg_left (by linarith) (by positivity)
      have um : u * m ≤ 1 / 1000 * m := mul_le_mul_of_nonneg_right hu hm0
      have e1 : 13 * u * k = 15.08 * u * (ρ + τ) := by rw [hk]; ring
      have u1 : 0 ≤ u * (ρ + τ) := by positivity
      linarith
    rw [this]
    exact a1 ⟨x, hx, hall⟩
  · rintro hR ⟨x, hx, hin, hall⟩
    have hin' : InBox c.bb.lo c.bb.hi p := by
      have h0 := Rounded.delta_nonneg (hl x hx).orth
      have ht0 : 0 ≤ τ := (len_nonneg _).trans (hl x hx).shift
      have hp0 := len_nonneg (V p)
      refine Rounded.ball_inBox h hu hδ hbb hx (hl x hx) (e := ε) ?_ (by rw [hε]; positivity) ?_
      · rw [hε]
        have := mul_le_mul (show 8 * u ≤ 24 * u + 5 * δ by linarith) (show ρ + τ ≤ ρ + τ + len (V p) by linarith)
          (by positivity) (by positivity)
        exact this
      · intro p' hp'
        obtain ⟨q, hq, hc⟩ := hall p' hp'
        exact ⟨q, hq, hin q hc⟩
    have : Rounded.boxSphere rnd c.bb p R = true := by
      rw [hbox]
      unfold Rounded.boxSphere
      rw [if_pos hR]
      exact (C23_contains _ _ p).1.2 hin'
    rw [this]
    exact a1 ⟨x, hx, hall⟩
  · intro hn
    split_ifs
    · rfl
    · exact a2 hn

/-- C126: a composite of boxes. Up to the margin `ε` it contains the union of the boxes, and up to a relative error and the
margin its sphere test compares the radius with the distance of the union. -/
theorem C126_boxes {u : ℝ} {rnd toF : ℝ → ℝ} (h : RelErr u rnd) (hu : u ≤ 1 / 1000) {δ ρ τ : ℝ} (hδ : δ ≤ 1 / 10) (hρ : 0 ≤ ρ)
    (hs : 2 * (ρ + τ) ≤ 1e10) (l : List ((Vec3 × Vec3) × Transform3))
    (hl : ∀ x ∈ l, Proper x.1.1 x.1.2 ∧ (∀ q, InBox x.1.1 x.1.2 q → len (V q) ≤ ρ) ∧ NearlyOrthogonal δ x.2.R ∧
      len (V x.2.t) ≤ τ) :
    ∃ c, Rounded.build rnd (l.map fun x => (Rounded.boxObj rnd toF (Box.new x.1.1 x.1.2), x.2)) = .ok c ∧
      ∀ p ε, ε = (24 * u + 5 * δ) * (ρ + τ + len (V p)) →
      ((∃ x ∈ l, ∀ p', Spec.dist p p' ≤ ε → Posed x.2 (InBox x.1.1 x.1.2) p') →
        Rounded.compositeContains rnd c p = .ok true) ∧
      ((∀ x ∈ l, ∀ p', Posed x.2 (InBox x.1.1 x.1.2) p' → ε < Spec.dist p p') →
        Rounded.compositeContains rnd c p = .ok false) ∧
      ∀ R, 0 < R →
        ((∃ x ∈ l, ∃ p', Posed x.2 (InBox x.1.1 x.1.2) p' ∧ (1 + 5 * u + 2 * δ) * Spec.dist p p' + 2 * ε ≤ R) →
          Rounded.compositeSphere rnd c p R = .ok true) ∧
        ((∀ x ∈ l, ∀ p', Posed x.2 (InBox x.1.1 x.1.2) p' → (1 + 5 * u + 2 * δ) * R + ε < Spec.dist p p') →
          Rounded.compositeSphere rnd c p R = .ok false) := by
  have hu0 := Rounded.relErr_nonneg h
  have tri : ∀ a b c : Vec3, Spec.dist a c ≤ Spec.dist a b + Spec.dist b c := by
    intro a b c
    simp only [Rounded.dist_eq_len]
    have := len_add (V a - V b) (V b - V c)
    rwa [sub_add_sub_cancel] at this
  have symm : ∀ a b : Vec3, Spec.dist a b = Spec.dist b a := by
    intro a b
    unfold Spec.dist distSq
    congr 1
    ring
  have diff : ∀ (T : Transform3) (a b : Vec3), V (T.apply a) - V (T.apply b) = M T.R *ᵥ (V a - V b) := by
    intro T a b
    rw [Rounded.V_apply, Rounded.V_apply, Matrix.mulVec_sub]; abel
  obtain ⟨l', hl'⟩ : ∃ l', l' = l.map fun x => (Rounded.boxObj rnd toF (Box.new x.1.1 x.1.2), x.2) := ⟨_, rfl⟩
  have hok : ∀ x ∈ l', PartOk δ ρ τ x := by
    intro y hy
    rw [hl'] at hy
    obtain ⟨x, hx, rfl⟩ := List.mem_map.1 hy
    obtain ⟨hp, hn, ho, ht⟩ := hl x hx
    refine ⟨box_good _ _, ho, ?_, ht, fun q R => ⟨⟨_, rfl⟩, ⟨_, rfl⟩⟩⟩
    intro c hc
    exact hn c (inBox_corners hp c ((box_trianglesOf _ _ c).1 hc))
  obtain ⟨c, hc, hcon⟩ := C126_contains h hu hδ hρ l' hok
  obtain ⟨c', hc', hsph⟩ := C126_sphere h hu hδ hρ hs l' hok
  have : c' = c := by rw [hc] at hc'; simpa using hc'.symm
  subst this
  rw [← hl']
  have mem : ∀ x ∈ l, (Rounded.boxObj rnd toF (Box.new x.1.1 x.1.2), x.2) ∈ l' := by
    intro x hx
    rw [hl']
    exact List.mem_map.2 ⟨x, hx, rfl⟩
  have cont : ∀ (lo hi q : Vec3), (Rounded.boxObj rnd toF (Box.new lo hi)).contains q = .ok true ↔ InBox lo hi q := by
    intro lo hi q
    rw [← (C23_contains lo hi q).1]
    simp [Rounded.boxObj]
  refine ⟨c', hc, fun p ε hε => ⟨?_, ?_, fun R hR => ⟨?_, ?_⟩⟩⟩
  · rintro ⟨x, hx, hall⟩
    refine (hcon p ε hε).1 ⟨_, mem x hx, fun q hq => box_hull ((cont _ _ q).1 hq), fun p' hp' => ?_⟩
    obtain ⟨q, hq, hb⟩ := hall p' hp'
    exact ⟨q, hq, (cont _ _ q).2 hb⟩
  · intro hn
    refine (hcon p ε hε).2 ?_
    rintro y hy p' hp' ⟨q, hq, hb⟩
    rw [hl'] at hy
    obtain ⟨x, hx, rfl⟩ := List.mem_map.1 hy
    have := hn x hx p' ⟨q, hq, (cont _ _ q).1 hb⟩
    linarith
  · rintro ⟨x, hx, p', ⟨y, rfl, hy⟩, hd⟩
    obtain ⟨hp, hn, ho, ht⟩ := hl x hx
    have h0 := Rounded.delta_nonneg ho
    have ht0 : 0 ≤ τ := (len_nonneg _).trans ht
    have hp0 := len_nonneg (V p)
    have ε0 : 0 ≤ ε := by rw [hε]; positivity
    have ε1 : 24 * u * (ρ + τ) ≤ ε := by
      rw [hε]
      exact mul_le_mul (by linarith) (by linarith) (by positivity) (by positivity)
    have d0 : 0 ≤ Spec.dist p (x.2.apply y) := Real.sqrt_nonneg _
    have u1 : 0 ≤ u * Spec.dist p (x.2.apply y) := by positivity
    have u2 : 0 ≤ δ * Spec.dist p (x.2.apply y) := by positivity
    have u3 : 0 ≤ u * ρ := by positivity
    have u4 : 0 ≤ u * τ := by positivity
    refine (hsph p R ε hε).1 hR ⟨_, mem x hx, ⟨y, box_hull hy, ?_⟩, fun p' hp' => ?_⟩
    · simp only
      linarith
    · obtain ⟨q, rfl⟩ := Rounded.surjective ho hδ p'
      refine ⟨q, rfl, ?_⟩
      have B : ∀ q, InBox x.1.1 x.1.2 q → |q.x| ≤ ρ ∧ |q.y| ≤ ρ ∧ |q.z| ≤ ρ := by
        intro q hq
        obtain ⟨l1, l2, l3⟩ := Rounded.len_coord q
        have := hn q hq
        exact ⟨l1.trans this, l2.trans this, l3.trans this⟩
      have key := ((C122_sphere h hu hp (B _ ⟨le_rfl, hp.1, le_rfl, hp.2.1, le_rfl, hp.2.2⟩)
        (B _ ⟨hp.1, le_rfl, hp.2.1, le_rfl, hp.2.2, le_rfl⟩) q R).1 hR).2 ⟨y, hy, ?_⟩
      · show (Except.ok _ : Exec Bool) = _
        rw [key]
      · have t1 := tri (x.2.apply q) p (x.2.apply y)
        rw [symm (x.2.apply q) p] at t1
        have t2 := Rounded.len_down ho hδ (V q - V y)
        rw [← diff, ← Rounded.dist_eq_len, ← Rounded.dist_eq_len] at t2
        have t3 : (1 + 2 * δ) * Spec.dist (x.2.apply q) (x.2.apply y) ≤ (1 + 2 * δ) * (ε + Spec.dist p (x.2.apply y)) :=
          mul_le_mul_of_nonneg_left (by linarith) (by positivity)
        have t4 : (1 + 4 * u) * Spec.dist q y ≤ (1 + 4 * u) * ((1 + 2 * δ) * (ε + Spec.dist p (x.2.apply y))) :=
          mul_le_mul_of_nonneg_left (by linarith) (by positivity)
        have t5 : (1 + 4 * u) * (1 + 2 * δ) ≤ 1 + 5 * u + 2 * δ := by
          have := mul_le_mul_of_nonneg_left hδ hu0
          linarith
        have t6 := mul_le_mul_of_nonneg_right t5 (show 0 ≤ ε + Spec.dist p (x.2.apply y) by positivity)
        have t7 : (1 + 5 * u + 2 * δ) * ε ≤ 1.3 * ε := mul_le_mul_of_nonneg_right (by linarith) ε0
        linarith
  · intro hn
    refine (hsph p R ε hε).2.2 ?_
    rintro y hy p' hp' ⟨q, rfl, hb⟩
    rw [hl'] at hy
    obtain ⟨x, hx, rfl⟩ := List.mem_map.1 hy
    obtain ⟨hp, hnear, ho, ht⟩ := hl x hx
    have h0 := Rounded.delta_nonneg ho
    have B : ∀ q, InBox x.1.1 x.1.2 q → |q.x| ≤ ρ ∧ |q.y| ≤ ρ ∧ |q.z| ≤ ρ := by
      intro q hq
      obtain ⟨l1, l2, l3⟩ := Rounded.len_coord q
      have := hnear q hq
      exact ⟨l1.trans this, l2.trans this, l3.trans this⟩
    obtain ⟨y, hy, hd⟩ := ((C122_sphere h hu hp (B _ ⟨le_rfl, hp.1, le_rfl, hp.2.1, le_rfl, hp.2.2⟩)
      (B _ ⟨hp.1, le_rfl, hp.2.1, le_rfl, hp.2.2, le_rfl⟩) q R).1 hR).1 (by simpa [Rounded.boxObj] using hb)
    have t0 := hn x hx _ ⟨y, rfl, hy⟩
    have t1 := tri p (x.2.apply q) (x.2.apply y)
    have t2 := Rounded.len_up ho (V q - V y)
    rw [← diff, ← Rounded.dist_eq_len, ← Rounded.dist_eq_len] at t2
    have t3 : (1 + 1.5 * δ) * Spec.dist q y ≤ (1 + 1.5 * δ) * ((1 + 4 * u) * R) :=
      mul_le_mul_of_nonneg_left hd (by positivity)
    have t5 : (1 + 1.5 * δ) * (1 + 4 * u) ≤ 1 + 5 * u + 2 * δ := by
      have := mul_le_mul_of_nonneg_left hδ hu0
      linarith
    have t6 := mul_le_mul_of_nonneg_right t5 hR.le
    simp only at hp'
    linarith

/-- C126 case: a unit cube, and a second one turned by a right angle about z and moved by (3, 0, 0), in `double`. The centre of
the second is contained, a point between the two is not, and a sphere about it meets the composite or does not. -/
example : ∃ c, Rounded.build toDouble ([((⟨0, 0, 0⟩, ⟨1, 1, 1⟩), ⟨Mat3.identity, ⟨0, 0, 0⟩⟩),
      ((⟨0, 0, 0⟩, ⟨1, 1, 1⟩), ⟨⟨0, -1, 0, 1, 0, 0, 0, 0, 1⟩, ⟨3, 0, 0⟩⟩)].map
        fun x : (Vec3 × Vec3) × Transform3 => (Rounded.boxObj toDouble toFloat (Box.new x.1.1 x.1.2), x.2)) = .ok c ∧
    Rounded.compositeContains toDouble c ⟨2.5, 0.5, 0.5⟩ = .ok true ∧
    Rounded.compositeContains toDouble c ⟨1.5, 0.5, 0.5⟩ = .ok false ∧
    Rounded.compositeSphere toDouble c ⟨1.5, 0.5, 0.5⟩ 0.500001 = .ok true ∧
    Rounded.compositeSphere toDouble c ⟨1.5, 0.5, 0.5⟩ 0.499999 = .ok false := by
  have small : ∀ {v : Vec3} {k : ℝ}, 0 ≤ k → v.x ^ 2 + v.y ^ 2 + v.z ^ 2 ≤ k ^ 2 → len (V v) ≤ k := by
    intro v k hk h
    simp only [len, V, Fin.sum_univ_three]
    rw [Real.sqrt_le_left hk]
    simpa using h
  obtain ⟨c, hc, key⟩ := C126_boxes (toF := toFloat) C93_roundings.1 (by norm_num) (δ := 0) (ρ := 2) (τ := 3) (by norm_num)
    (by norm_num) (by norm_num) [((⟨0, 0, 0⟩, ⟨1, 1, 1⟩), ⟨Mat3.identity, ⟨0, 0, 0⟩⟩),
      ((⟨0, 0, 0⟩, ⟨1, 1, 1⟩), ⟨⟨0, -1, 0, 1, 0, 0, 0, 0, 1⟩, ⟨3, 0, 0⟩⟩)] (by
    have cube : ∀ q, InBox ⟨0, 0, 0⟩ ⟨1, 1, 1⟩ q → len (V q) ≤ 2 := by
      rintro q ⟨h1, h2, h3, h4, h5, h6⟩
      simp only at h1 h2 h3 h4 h5 h6
      exact small (by norm_num) (by nlinarith)
    intro x hx
    simp only [List.mem_cons, List.not_mem_nil, or_false] at hx
    rcases hx with rfl | rfl
    · refine ⟨by norm_num [Proper], cube, ?_, small (by norm_num) (by norm_num)⟩
      intro i j
      fin_cases i <;> fin_cases j <;> simp [M, Mat3.identity, Matrix.mul_apply, Fin.sum_univ_three]
    · refine ⟨by norm_num [Proper], cube, ?_, small (by norm_num) (by norm_num)⟩
      intro i j
      fin_cases i <;> fin_cases j <;> simp [M, Matrix.mul_apply, Fin.sum_univ_three])
  have eps : ∀ p : Vec3, len (V p) ≤ 3 → (24 * (1 / 2 ^ 53) + 5 * 0) * (2 + 3 + len (V p)) ≤ 1e-9 := by
    intro p hp
    have := mul_le_mul_of_nonneg_left (show 2 + 3 + len (V p) ≤ 8 by linarith) (show (0 : ℝ) ≤ 24 * (1 / 2 ^ 53) + 5 * 0 by norm_num)
    exact this.trans (by norm_num)
  have coord : ∀ {a b : Vec3} {e : ℝ}, Spec.dist a b ≤ e → |a.x - b.x| ≤ e ∧ |a.y - b.y| ≤ e ∧ |a.z - b.z| ≤ e := by
    intro a b e hd
    refine ⟨(Real.abs_le_sqrt ?_).trans hd, (Real.abs_le_sqrt ?_).trans hd, (Real.abs_le_sqrt ?_).trans hd⟩ <;>
    · unfold distSq
      nlinarith [sq_nonneg (a.x - b.x), sq_nonneg (a.y - b.y), sq_nonneg (a.z - b.z)]
  have far : ∀ x ∈ [(((⟨0, 0, 0⟩, ⟨1, 1, 1⟩) : Vec3 × Vec3), (⟨Mat3.identity, ⟨0, 0, 0⟩⟩ : Transform3)),
      ((⟨0, 0, 0⟩, ⟨1, 1, 1⟩), ⟨⟨0, -1, 0, 1, 0, 0, 0, 0, 1⟩, ⟨3, 0, 0⟩⟩)], ∀ p', Posed x.2 (InBox x.1.1 x.1.2) p' →
        0.5 ≤ Spec.dist ⟨1.5, 0.5, 0.5⟩ p' := by
    rintro x hx p' ⟨q, rfl, h1, h2, h3, h4, h5, h6⟩
    by_contra hc
    have hd := (coord (not_le.1 hc).le).1
    have hlt : Spec.dist ⟨1.5, 0.5, 0.5⟩ (x.2.apply q) < 0.5 := not_le.1 hc
    have hsq := (Real.sqrt_lt' (by norm_num)).1 hlt
    unfold distSq at hsq
    simp only [List.mem_cons, List.not_mem_nil, or_false] at hx
    rcases hx with rfl | rfl
    · simp [Transform3.apply, Mat3.mulVec, Mat3.identity] at h1 h2 h3 h4 h5 h6 hsq
      nlinarith [sq_nonneg (0.5 - q.y), sq_nonneg (0.5 - q.z)]
    · simp [Transform3.apply, Mat3.mulVec] at h1 h2 h3 h4 h5 h6 hsq
      nlinarith [sq_nonneg (0.5 - q.x), sq_nonneg (0.5 - q.z)]
  have l1 : len (V ⟨2.5, 0.5, 0.5⟩) ≤ 3 := small (by norm_num) (by norm_num)
  have l2 : len (V ⟨1.5, 0.5, 0.5⟩) ≤ 3 := small (by norm_num) (by norm_num)
  have e1 := eps _ l1
  have e2 := eps _ l2
  refine ⟨c, hc, ?_, ?_, ?_, ?_⟩
  · refine (key _ _ rfl).1 ⟨_, by simp; right; rfl, ?_⟩
    intro p' hp'
    obtain ⟨c1, c2, c3⟩ := coord (hp'.trans e1)
    rw [abs_le] at c1 c2 c3
    simp only at c1 c2 c3
    refine ⟨⟨p'.y, 3 - p'.x, p'.z⟩, ?_, ?_⟩
    · ext <;> simp [Transform3.apply, Mat3.mulVec]
    · refine ⟨?_, ?_, ?_, ?_, ?_, ?_⟩ <;> simp only <;> linarith
  · refine (key _ _ rfl).2.1 fun x hx p' hp' => ?_
    have := far x hx p' hp'
    linarith
  · refine ((key _ _ rfl).2.2 _ (by norm_num)).1 ⟨((⟨0, 0, 0⟩, ⟨1, 1, 1⟩), ⟨Mat3.identity, ⟨0, 0, 0⟩⟩), by simp, ⟨1, 0.5, 0.5⟩,
      ⟨⟨1, 0.5, 0.5⟩, ?_, ?_⟩, ?_⟩
    · ext <;> simp [Transform3.apply, Mat3.mulVec, Mat3.identity]
    · norm_num [InBox]
    · have hd : Spec.dist ⟨1.5, 0.5, 0.5⟩ ⟨1, 0.5, 0.5⟩ ≤ 0.5 := by
        unfold Spec.dist distSq
        rw [Real.sqrt_le_left (by norm_num)]
        norm_num
      have : (1 + 5 * (1 / 2 ^ 53) + 2 * 0) * Spec.dist ⟨1.5, 0.5, 0.5⟩ ⟨1, 0.5, 0.5⟩ ≤
          (1 + 5 * (1 / 2 ^ 53) + 2 * 0) * 0.5 := mul_le_mul_of_nonneg_left hd (by norm_num)
      norm_num at this e2 ⊢
      linarith
  · refine ((key _ _ rfl).2.2 _ (by norm_num)).2 fun x hx p' hp' => ?_
    have := far x hx p' hp'
    norm_num at e2 ⊢
    linarith

end Geo
