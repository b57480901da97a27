import Verif.Lemmas.Joint
import Verif.Props.LaserRangeFinderMesh
import Verif.Props.DepthCameraRender

/-!
# Sensors that see several objects, and composites (C102)
-/

namespace Geo

open Spec

/-! ## C102 -/

/-- C102: a scan of several objects drawn one after another shows on each beam the nearest of the depths that the objects
show alone (and of what was there before). -/
theorem C102_scene {l : LRF} (h : Fine l) (xs : List (Mesh × Transform3)) (hv : ∀ x ∈ xs, Valid x.1.points x.1.tris)
    (ranges : List EReal) (hl : ranges.length = l.numBeams) :
    ∃ rs, scanAll l xs ranges = .ok rs ∧ rs.length = l.numBeams ∧
      ∀ (j : ℕ) old new, ranges[j]? = some old → rs[j]? = some new → IsNearest old (SingleDepths l xs j) new := by
  induction xs using List.reverseRecOn with
  | nil =>
    refine ⟨ranges, rfl, hl, fun j old new ho hn => ?_⟩
    rw [ho, Option.some.injEq] at hn
    subst hn
    have : SingleDepths l [] j = ∅ := by simp [SingleDepths]
    rw [this]
    exact ⟨fun _ => rfl, fun hne => absurd hne Set.not_nonempty_empty⟩
  | append_singleton xs x ih =>
    obtain ⟨rs, e1, e2, e3⟩ := ih fun y hy => hv y (by simp [hy])
    obtain ⟨f, hf, hd⟩ := render_draws h (hv x (by simp)) x.2
    obtain ⟨res, g1, g2, g3⟩ := hd rs
    refine ⟨res.ranges, ?_, g2, fun j old new ho hn => ?_⟩
    · rw [scanAll_append, e1]
      simp only [bind, Except.bind, scanAll, g1]
    · have hj : j < l.numBeams := by
        rw [← hl]
        exact (List.getElem?_eq_some_iff.1 ho).1
      have hr : rs[j]? = some (rs[j]'(by omega)) := List.getElem?_eq_getElem (by omega)
      have hi := e3 j old _ ho hr
      have hnew := g3 j hj
      rw [hn, Option.some.injEq, hr, Option.getD_some] at hnew
      rw [hnew]
      obtain ⟨res0, k1, k2, k3⟩ := hd []
      have hk := k3 j hj
      rw [List.getElem?_nil, Option.getD_none] at hk
      have hpos : ∀ d ∈ SingleDepths l xs j, 0 < d := by
        rintro d ⟨d0, y, hy, s, hs, hsj⟩
        obtain ⟨f', hf', hd'⟩ := render_draws h (hv y (by simp [hy])) y.2
        obtain ⟨s', m1, m2, m3⟩ := hd' []
        rw [hs, Except.ok.injEq] at m1
        subst m1
        have := m3 j hj
        rw [hsj, Option.some.injEq, List.getElem?_nil, Option.getD_none] at this
        cases hfj : f' j with
        | none => rw [hfj] at this; exact absurd this d0
        | some e =>
          rw [hfj] at this
          rw [this]
          simpa [dab, combine] using hf' j e hfj
      cases hfj : f j with
      | none =>
        rw [hfj] at hk
        have : SingleDepths l (xs ++ [x]) j = SingleDepths l xs j := by
          ext d
          simp only [SingleDepths, Set.mem_ofPred_eq, List.mem_append, List.mem_singleton]
          refine and_congr_right fun d0 => ⟨?_, ?_⟩
          · rintro ⟨y, hy | rfl, s, hs, hsj⟩
            · exact ⟨y, hy, s, hs, hsj⟩
            · rw [k1, Except.ok.injEq] at hs
              subst hs
              rw [hk, Option.some.injEq] at hsj
              exact absurd hsj.symm d0
          · rintro ⟨y, hy, s, hs, hsj⟩
            exact ⟨y, .inl hy, s, hs, hsj⟩
        rw [this]
        exact hi
      | some e =>
        have he := hf j e hfj
        rw [hfj] at hk
        have hk' : res0.ranges[j]? = some e := by simpa [dab, combine] using hk
        have : SingleDepths l (xs ++ [x]) j = insert e (SingleDepths l xs j) := by
          ext d
          simp only [SingleDepths, Set.mem_ofPred_eq, List.mem_append, List.mem_singleton, Set.mem_insert_iff]
          constructor
          · rintro ⟨d0, y, hy | rfl, s, hs, hsj⟩
            · exact .inr ⟨d0, y, hy, s, hs, hsj⟩
            · rw [k1, Except.ok.injEq] at hs
              subst hs
              rw [hk', Option.some.injEq] at hsj
              exact .inl hsj.symm
          · rintro (rfl | ⟨d0, y, hy, s, hs, hsj⟩)
            · exact ⟨he.ne', x, .inr rfl, res0, k1, hk'⟩
            · exact ⟨d0, y, .inl hy, s, hs, hsj⟩
        rw [this]
        exact combine_nearest hpos hi

/-- C102 for the laser, a positive maximum range and rigid poses: drawing a composite is drawing its parts one after another, so
that each beam shows the nearest of the depths that the parts show alone. -/
theorem C102_composite_partial {l : LRF} (h : Fine l) (hR : 0 < l.rangeMax) {T : Transform3} (hT : Rigid T)
    (parts : List (ShapeObj × Transform3)) (hm : ∀ x ∈ parts, GoodMesh x.1.mesh) (hr : ∀ x ∈ parts, Rigid x.2)
    (hn : (parts.map fun x => x.1.mesh.points.length).sum ≤ 2 ^ 32) (ranges : List EReal) (hl : ranges.length = l.numBeams) :
    ∃ c res, Composite.build parts = .ok c ∧ l.render c.mesh T ranges = .ok res ∧
      scanAll l (partsIn T parts) ranges = .ok res.ranges ∧
      ∀ (j : ℕ) old new, ranges[j]? = some old → res.ranges[j]? = some new →
        IsNearest old (SingleDepths l (partsIn T parts) j) new := by
  obtain ⟨c, hc, -⟩ := Composite.build_from parts hm Composite.new
  have hc' : Composite.build parts = .ok c := hc
  obtain ⟨hg, ht⟩ := Composite.mesh_eq hm hn hc'
  have t := (LRF.ready_inv h.ready).1.2.1
  have hres : LRF.resizeRanges ranges l.rayDirs.length = ranges := by
    unfold LRF.resizeRanges
    rw [List.take_of_length_le (by omega), show l.rayDirs.length - ranges.length = 0 by omega]
    simp
  obtain ⟨r, e1, e2⟩ := composite_scan h hR hT parts hm hr ⟨0, u32 l.rayDirs.length, ranges⟩ hl
  have hrend : l.render c.mesh T ranges = .ok r := by
    rw [C57_lossless l c.mesh T hT hg hR, hres, renderTriangles_soup _ _ _ _ _ _ (good_soup hg).1, ht, e1]
  refine ⟨c, r, hc', hrend, e2, ?_⟩
  obtain ⟨rs, g1, -, g3⟩ := C102_scene h (partsIn T parts) (by
    intro x hx
    obtain ⟨y, hy, rfl⟩ := List.mem_map.1 hx
    exact (hm y hy).2) ranges hl
  rw [e2, Except.ok.injEq] at g1
  subst g1
  exact g3

/-- C102 for the depth camera and rigid poses: painting a composite gives the image and the pointer map (or the error) of painting
its parts one after another. -/
theorem C102_paint (c : Camera) {T : Transform3} (hT : Rigid T) (parts : List (ShapeObj × Transform3))
    (hm : ∀ x ∈ parts, GoodMesh x.1.mesh) (hr : ∀ x ∈ parts, Rigid x.2)
    (hn : (parts.map fun x => x.1.mesh.points.length).sum ≤ 2 ^ 32) (image : DepthImage) (pm : List (List ℕ)) (pointer : ℕ)
    (tm : List (List ℤ)) :
    ∃ k, Composite.build parts = .ok k ∧
      SamePicture (rasterize c k.mesh T image pm pointer tm)
        (paintAll c (partsIn T parts) (DefaultResult.new image pointer pm tm)) := by
  obtain ⟨k, hc, -⟩ := Composite.build_from parts hm Composite.new
  have hc' : Composite.build parts = .ok k := hc
  obtain ⟨hg, ht⟩ := Composite.mesh_eq hm hn hc'
  refine ⟨k, hc', ?_⟩
  rw [Raster.rasterize_soup c hT hg, ht]
  have := Raster.composite_paint c hT parts hm hr 0 (.new image pointer pm tm) (.new image pointer pm tm)
    (Raster.settled_new _ _ _ _) ⟨rfl, rfl, rfl, rfl, rfl⟩
  rcases this with ⟨r, r', e1, e2, ha⟩ | ⟨e, e1, e2⟩
  · rw [e2]
    have e1' : Raster.loopSoup c image.cols image.rows 0 ((posedTriangles parts).map (Raster.move T))
      (DefaultResult.new image pointer pm tm) = .ok r := e1
    rw [e1']
    exact ⟨ha.image, ha.pointerMap⟩
  · have e1' : Raster.loopSoup c image.cols image.rows 0 ((posedTriangles parts).map (Raster.move T))
      (DefaultResult.new image pointer pm tm) = .error e := e1
    rw [e1', e2]
    rfl

/-- C102: in world poses, a part of a composite at `obj` stands at `obj` times its own pose. -/
theorem C102_poses (l : LRF) (c : Camera) (m : Mesh) (cam obj P : Transform3) (ranges : List EReal) (image : DepthImage)
    (pm : List (List ℕ)) (pointer : ℕ) (tm : List (List ℤ)) :
    l.renderShape m cam (obj.mul P) ranges = l.render m ((cam.inverse.mul obj).mul P) ranges ∧
    rasterize2 c m cam (obj.mul P) image pm pointer tm = rasterize c m ((cam.inverse.mul obj).mul P) image pm pointer tm := by
  have e : (cam.inverse.mul obj).mul P = cam.inverse.mul (obj.mul P) := by
    ext <;> simp [Transform3.mul, Mat3.mul, Mat3.mulVec] <;> ring
  unfold LRF.renderShape rasterize2
  rw [e]
  exact ⟨rfl, rfl⟩

/-- A shape with the mesh of the cases below. (Device of the proofs.) -/
noncomputable def plateObj : ShapeObj := Shape.toObj ⟨plate, false, ⟨0, 0, 0⟩, ⟨0, 0, 0⟩⟩

/-- Drawing the plate `d` in front of the sensor. -/
theorem plate_drawn {l : LRF} (h2 : l.aMin = -(Real.pi / 2)) (h4 : l.numBeams = 3) (h6 : Fine l)
    (h7 : spacing l = Real.pi / 2) {d : ℝ} (hd : 0 < d) (hR : l.rangeMax ≤ 0 ∨ d ≤ l.rangeMax) (res : RenderResult)
    (hl : res.ranges.length = 3) :
    ∃ res', renderSoup l ⟨Mat3.identity, ⟨d, 0, 0⟩⟩ (trianglesOf plate) res = .ok res' ∧
      res'.ranges[1]? = (res.ranges[1]?).map fun r => combine r d := by
  have hsl : LRF.slice (LRF.planar ⟨Mat3.identity, ⟨d, 0, 0⟩⟩ ⟨0, 0, 1⟩)
      (LRF.planar ⟨Mat3.identity, ⟨d, 0, 0⟩⟩ ⟨0, 2, -1⟩) (LRF.planar ⟨Mat3.identity, ⟨d, 0, 0⟩⟩ ⟨0, -2, -1⟩)
      (LRF.height ⟨Mat3.identity, ⟨d, 0, 0⟩⟩ ⟨0, 0, 1⟩) (LRF.height ⟨Mat3.identity, ⟨d, 0, 0⟩⟩ ⟨0, 2, -1⟩)
      (LRF.height ⟨Mat3.identity, ⟨d, 0, 0⟩⟩ ⟨0, -2, -1⟩) = some (⟨d, -1⟩, ⟨d, 1⟩) := by
    simp only [height_eq, planar_eq, Transform3.apply, Mat3.mulVec, Mat3.identity, Vec3.add_x, Vec3.add_y, Vec3.add_z]
    have e1 : LRF.cut ⟨d, 0⟩ ⟨d, -2⟩ 1 (-1) = ⟨d, -1⟩ := by ext <;> norm_num [LRF.cut]
    have e2 : LRF.cut ⟨d, 0⟩ ⟨d, 2⟩ 1 (-1) = ⟨d, 1⟩ := by ext <;> norm_num [LRF.cut]
    norm_num [LRF.slice, e1, e2]
  obtain ⟨_, _, r, g1, g2, g3⟩ := half_draw h2 h4 h6 h7 hd one_pos hR res hl
  refine ⟨r, ?_, g3⟩
  have ht : trianglesOf plate = [(⟨0, 0, 1⟩, ⟨0, 2, -1⟩, ⟨0, -2, -1⟩)] := rfl
  rw [ht]
  simp only [renderSoup, hsl, g1, bind, Except.bind]

/-- A rigid move along x. -/
theorem shift_rigid (v : Vec3) : Rigid ⟨Mat3.identity, v⟩ := by rw [Rigid, Orthogonal, M_identity]; simp

/-- C102 case: a composite of two plates 5 and 3 in front of a sensor meets the hypotheses, the plates show 5 and 3 alone, and the
middle beam of the scan of the composite shows 3. -/
example : ∃ l, Fine l ∧ 0 < l.rangeMax ∧ ∃ c res,
    Composite.build [(plateObj, ⟨Mat3.identity, ⟨5, 0, 0⟩⟩), (plateObj, ⟨Mat3.identity, ⟨3, 0, 0⟩⟩)] = .ok c ∧
    l.render c.mesh Transform3.identity [0, 0, 0] = .ok res ∧ res.ranges[1]? = some ((3 : ℝ) : EReal) := by
  obtain ⟨l, h1, h2, h3, h4, h5, h6, h7⟩ := half_sensor 20
  have hR : 0 < l.rangeMax := by rw [h5]; norm_num
  have t := (LRF.ready_inv h6.ready).1.2.1
  have hid : Transform3.identity = ⟨Mat3.identity, ⟨0, 0, 0⟩⟩ := rfl
  obtain ⟨c, res, e1, e2, e3, e4⟩ := C102_composite_partial h6 hR (T := Transform3.identity) (hid ▸ shift_rigid _)
    [(plateObj, ⟨Mat3.identity, ⟨5, 0, 0⟩⟩), (plateObj, ⟨Mat3.identity, ⟨3, 0, 0⟩⟩)]
    (by simp only [List.mem_cons, List.not_mem_nil, or_false, forall_eq_or_imp, forall_eq]; exact ⟨plate_good, plate_good⟩)
    (by simp only [List.mem_cons, List.not_mem_nil, or_false, forall_eq_or_imp, forall_eq]
        exact ⟨shift_rigid _, shift_rigid _⟩)
    (by simp [plateObj, Shape.toObj, Shape.getMesh, plate]) [0, 0, 0] (by simp [h4])
  refine ⟨l, h6, hR, c, res, e1, e2, ?_⟩
  have alone : ∀ d : ℝ, 0 < d → d ≤ 20 → ∃ s, l.render plate (Transform3.identity.mul ⟨Mat3.identity, ⟨d, 0, 0⟩⟩) [] = .ok s ∧
      s.ranges[1]? = some (d : EReal) := by
    intro d hd hd'
    have e : Transform3.identity.mul ⟨Mat3.identity, ⟨d, 0, 0⟩⟩ = ⟨Mat3.identity, ⟨d, 0, 0⟩⟩ := by
      ext <;> simp [Transform3.mul, Transform3.identity, Mat3.mul, Mat3.mulVec, Mat3.identity]
    rw [e, C57_lossless l plate _ (shift_rigid _) plate_good hR, renderTriangles_soup _ _ _ _ _ _ (good_soup plate_good).1]
    obtain ⟨s, g1, g2⟩ := plate_drawn h2 h4 h6 h7 hd (.inr (by rw [h5]; exact hd'))
      ⟨0, u32 l.rayDirs.length, LRF.resizeRanges [] l.rayDirs.length⟩ (by simp [resize_length, t, h4])
    refine ⟨s, g1, ?_⟩
    rw [g2, resize_get _ _ (by omega)]
    simp [combine]
  obtain ⟨s5, a1, a2⟩ := alone 5 (by norm_num) (by norm_num)
  obtain ⟨s3, b1, b2⟩ := alone 3 (by norm_num) (by norm_num)
  have hlen : 1 < res.ranges.length := by
    obtain ⟨r', q1, q2, -⟩ := C77_render h6 c.mesh (Composite.mesh_eq (l := [(plateObj, ⟨Mat3.identity, ⟨5, 0, 0⟩⟩),
      (plateObj, ⟨Mat3.identity, ⟨3, 0, 0⟩⟩)]) (by
        simp only [List.mem_cons, List.not_mem_nil, or_false, forall_eq_or_imp, forall_eq]; exact ⟨plate_good, plate_good⟩)
      (by simp [plateObj, Shape.toObj, Shape.getMesh, plate]) e1).1.2 Transform3.identity [0, 0, 0]
    rw [e2, Except.ok.injEq] at q1
    subst q1
    omega
  have hn := e4 1 0 _ (by simp) (List.getElem?_eq_getElem hlen)
  rw [List.getElem?_eq_getElem hlen]
  congr 1
  have hset : SingleDepths l (partsIn Transform3.identity
      [(plateObj, ⟨Mat3.identity, ⟨5, 0, 0⟩⟩), (plateObj, ⟨Mat3.identity, ⟨3, 0, 0⟩⟩)]) 1 = {((5 : ℝ) : EReal), ((3 : ℝ) : EReal)} := by
    ext d
    simp only [SingleDepths, partsIn, List.map_cons, List.map_nil, List.mem_cons, List.not_mem_nil, or_false,
      Set.mem_ofPred_eq, Set.mem_insert_iff, Set.mem_singleton_iff]
    constructor
    · rintro ⟨-, x, rfl | rfl, s, hs, hsj⟩
      · have : s = s5 := Except.ok.inj (hs.symm.trans a1)
        subst this
        exact .inl (Option.some.inj (hsj.symm.trans a2))
      · have : s = s3 := Except.ok.inj (hs.symm.trans b1)
        subst this
        exact .inr (Option.some.inj (hsj.symm.trans b2))
    · rintro (rfl | rfl)
      · exact ⟨by simp, _, .inl rfl, s5, a1, a2⟩
      · exact ⟨by simp, _, .inr rfl, s3, b1, b2⟩
  rw [hset] at hn
  obtain ⟨m1, m2⟩ := hn.2 (by simp)
  have h3le := m2 (show ((3 : ℝ) : EReal) ∈ _ from .inl (by simp))
  refine le_antisymm h3le ?_
  rcases m1 with m1 | ⟨-, m1⟩
  · rcases m1 with m1 | m1
    · rw [m1]
      exact_mod_cast (by norm_num : (3 : ℝ) ≤ 5)
    · rw [Set.mem_singleton_iff.1 m1]
  · exact absurd rfl m1

/-- A shape with the mesh of the case below. (Device of the proofs.) -/
noncomputable def shardObj : ShapeObj := Shape.toObj ⟨shard, false, ⟨0, 0, 0⟩, ⟨0, 0, 0⟩⟩

/-- C102 case: a composite of two triangles, one of them behind the other, meets the hypotheses, and painting it and painting the
parts succeed with the same image. -/
example : ∃ k r r', Composite.build [(shardObj, ⟨Mat3.identity, ⟨0, 0, 0⟩⟩), (shardObj, ⟨Mat3.identity, ⟨0, 0, -1⟩⟩)] = .ok k ∧
    rasterize unitCamera k.mesh Transform3.identity ⟨2, 2, fun _ _ => .fin 0⟩ [] 7 [] = .ok r ∧
    paintAll unitCamera (partsIn Transform3.identity
      [(shardObj, ⟨Mat3.identity, ⟨0, 0, 0⟩⟩), (shardObj, ⟨Mat3.identity, ⟨0, 0, -1⟩⟩)]) (blank 2 2) = .ok r' ∧
    r.image = r'.image ∧ r.pointerMap = r'.pointerMap := by
  have hid : Transform3.identity = ⟨Mat3.identity, ⟨0, 0, 0⟩⟩ := rfl
  obtain ⟨k, h1, h2⟩ := C102_paint unitCamera (T := Transform3.identity) (hid ▸ shift_rigid _)
    [(shardObj, ⟨Mat3.identity, ⟨0, 0, 0⟩⟩), (shardObj, ⟨Mat3.identity, ⟨0, 0, -1⟩⟩)]
    (by simp only [List.mem_cons, List.not_mem_nil, or_false, forall_eq_or_imp, forall_eq]; exact ⟨shard_good, shard_good⟩)
    (by simp only [List.mem_cons, List.not_mem_nil, or_false, forall_eq_or_imp, forall_eq]
        exact ⟨shift_rigid _, shift_rigid _⟩)
    (by simp [shardObj, Shape.toObj, Shape.getMesh, shard]) ⟨2, 2, fun _ _ => .fin 0⟩ [] 7 []
  have e : ∀ v, Transform3.identity.mul ⟨Mat3.identity, v⟩ = ⟨Mat3.identity, v⟩ := by
    intro v
    ext <;> simp [Transform3.mul, Transform3.identity, Mat3.mul, Mat3.mulVec, Mat3.identity]
  have near : Near shard ⟨Mat3.identity, ⟨0, 0, -1⟩⟩ 2 := by
    intro p hp
    have := shard_near p hp
    simpa [Transform3.apply, Mat3.mulVec, Mat3.identity] using this
  have c1 : ∀ col ∈ (blank 2 2).pointerMap, (blank 2 2).image.rows ≤ col.length := by
    simp [blank, DefaultResult.new, DefaultResult.misfit, DefaultResult.resize]
  have c2 : ∀ col ∈ (blank 2 2).triangleMap, (blank 2 2).image.rows ≤ col.length := by
    simp [blank, DefaultResult.new, DefaultResult.misfit, DefaultResult.resize]
  obtain ⟨r1, a1, a2⟩ := rasterize_ok (pointer := (blank 2 2).pointer) unitCamera_moderate shard_good.2 shard_near c1 c2
  obtain ⟨n1, n2⟩ := DefaultResult.new_cols (pointer := (blank 2 2).pointer) (le_refl (blank 2 2).image.rows) c1 c2
  obtain ⟨r2, b1, -⟩ := rasterize_ok (image := r1.image) (pointer := r1.pointer) unitCamera_moderate shard_good.2 near
    (fun col hc => a2.rows ▸ DefaultResult.cols_lengths a2.ptr n1 col hc)
    (fun col hc => a2.rows ▸ DefaultResult.cols_lengths a2.tri n2 col hc)
  have hp : paintAll unitCamera (partsIn Transform3.identity
      [(shardObj, ⟨Mat3.identity, ⟨0, 0, 0⟩⟩), (shardObj, ⟨Mat3.identity, ⟨0, 0, -1⟩⟩)]) (blank 2 2) = .ok r2 := by
    simp only [partsIn, List.map_cons, List.map_nil, paintAll, e]
    rw [show shardObj.mesh = shard from rfl, a1]
    simp only [bind, Except.bind]
    rw [b1]
  rw [show DefaultResult.new ⟨2, 2, fun _ _ => .fin 0⟩ 7 [] [] = blank 2 2 from rfl, hp] at h2
  cases hr : rasterize unitCamera k.mesh Transform3.identity ⟨2, 2, fun _ _ => .fin 0⟩ [] 7 [] with
  | error e => rw [hr] at h2; exact h2.elim
  | ok r =>
    rw [hr] at h2
    exact ⟨k, r, r2, h1, hr, hp, h2.1, h2.2⟩

/-- C102 is false for a laser without maximum range (0, which `renderLine` takes as no limit): it sees the composite of one plate
10 in front of it, but not the plate itself. -/
theorem C102_unlimited_wrong : ∃ l, Fine l ∧ l.rangeMax = 0 ∧ GoodMesh plateObj.mesh ∧ ∃ c res rs,
    Composite.build [(plateObj, ⟨Mat3.identity, ⟨10, 0, 0⟩⟩)] = .ok c ∧
    l.render c.mesh Transform3.identity [0, 0, 0] = .ok res ∧ res.ranges[1]? = some ((10 : ℝ) : EReal) ∧
    scanAll l (partsIn Transform3.identity [(plateObj, ⟨Mat3.identity, ⟨10, 0, 0⟩⟩)]) [0, 0, 0] = .ok rs ∧
    rs[1]? = some 0 := by
  obtain ⟨l, h1, h2, h3, h4, h5, h6, h7⟩ := half_sensor 0
  have ht := (LRF.ready_inv h6.ready).1
  have hm : ∀ x ∈ [(plateObj, (⟨Mat3.identity, ⟨10, 0, 0⟩⟩ : Transform3))], GoodMesh x.1.mesh := by
    simp only [List.mem_singleton, forall_eq]
    exact plate_good
  obtain ⟨c, hc, -⟩ := Composite.build_from _ hm Composite.new
  have hc' : Composite.build [(plateObj, ⟨Mat3.identity, ⟨10, 0, 0⟩⟩)] = .ok c := hc
  obtain ⟨hg, htr⟩ := Composite.mesh_eq hm (by simp [plateObj, Shape.toObj, Shape.getMesh, plate]) hc'
  have e : Transform3.identity.mul ⟨Mat3.identity, ⟨10, 0, 0⟩⟩ = ⟨Mat3.identity, ⟨10, 0, 0⟩⟩ := by
    ext <;> simp [Transform3.mul, Transform3.identity, Mat3.mul, Mat3.mulVec, Mat3.identity]
  have hs : ∀ R, l.skips Transform3.identity R = false := by
    intro R
    unfold LRF.skips
    rw [decide_eq_false_iff_not]
    rintro ⟨h, h1 | ⟨h1, -⟩⟩
    · simp [Transform3.identity] at h1; linarith
    · simp [Transform3.identity, Vec3.length2] at h1
      nlinarith
  have hres : LRF.resizeRanges [0, 0, 0] l.rayDirs.length = [0, 0, 0] := by
    rw [ht.2.1, h4]
    rfl
  obtain ⟨res, g1, g2⟩ := plate_drawn h2 h4 h6 h7 (d := 10) (by norm_num) (.inl h5.le)
    ⟨0, u32 l.rayDirs.length, LRF.resizeRanges [0, 0, 0] l.rayDirs.length⟩ (by rw [hres]; rfl)
  have hsk : l.skips ⟨Mat3.identity, ⟨10, 0, 0⟩⟩ plate.getMaxRadius.2 = true := by
    have h5' : Real.sqrt 5 < 3 := by rw [Real.sqrt_lt' (by norm_num)]; norm_num
    have h10 : Real.sqrt ((10 : ℝ) * 10) = 10 := Real.sqrt_mul_self (by norm_num)
    unfold LRF.skips
    rw [plate_radius, decide_eq_true_iff, h5]
    refine ⟨Real.sqrt_pos.2 (by norm_num), .inr ⟨?_, ?_⟩⟩
    · rw [Real.mul_self_sqrt (by norm_num)]; norm_num [Vec3.length2]
    · simp only [Vec3.length2, mul_zero, add_zero, h10]; linarith
  refine ⟨l, h6, h5, plate_good, c, res, [0, 0, 0], hc', ?_, ?_, ?_, by simp⟩
  · unfold LRF.render
    dsimp only
    rw [hs, if_neg (by simp), renderTriangles_soup _ _ _ _ _ _ (good_soup hg).1, htr]
    have : posedTriangles [(plateObj, (⟨Mat3.identity, ⟨10, 0, 0⟩⟩ : Transform3))] = (trianglesOf plate).map
        fun t => ((⟨Mat3.identity, ⟨10, 0, 0⟩⟩ : Transform3).apply t.1, (⟨Mat3.identity, ⟨10, 0, 0⟩⟩ : Transform3).apply t.2.1,
          (⟨Mat3.identity, ⟨10, 0, 0⟩⟩ : Transform3).apply t.2.2) := by
      simp [posedTriangles, plateObj, Shape.toObj, Shape.getMesh]
    rw [this, renderSoup_move, e, g1]
  · rw [g2, hres]
    simp [combine]
  · simp only [partsIn, List.map_cons, List.map_nil, scanAll, e]
    have : l.render plateObj.mesh ⟨Mat3.identity, ⟨10, 0, 0⟩⟩ [0, 0, 0] =
        .ok ⟨0, u32 l.rayDirs.length, LRF.resizeRanges [0, 0, 0] l.rayDirs.length⟩ := by
      unfold LRF.render
      dsimp only
      rw [if_pos (by exact hsk)]
    rw [this, hres]
    rfl

end Geo
