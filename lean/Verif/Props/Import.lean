import Verif.Lemmas.Import
import Verif.Props.Math
import Verif.Props.Mesh

/-!
# Properties of imported scenes (C70, C83, C84)
-/

namespace Geo

open Spec Import

/-- C70: importing a well-formed scene succeeds. -/
theorem C70_ok (scene : List AiMesh) (scale : Vec3) (transform : Bool) (root : AiNode) (parent : Transform3)
    (h : SceneOk scene scale root parent) : ∃ m, constructMesh scene scale transform root parent Mesh.new = .ok m := by
  rw [constructMesh_eq]
  exact fold_ok _ _ fun k P hk => h k P ((mem_placements _ _ _ _).1 hk)

/-- C70: the imported mesh (of at most 2^32 points) has valid indices, no triangle twice, shows every triangular face of every
mesh placed in the tree and nothing else, and all of its points come from vertices of placed meshes. -/
theorem C70_shows {scene : List AiMesh} {scale : Vec3} {transform : Bool} {root : AiNode} {parent : Transform3} {m : Mesh}
    (h : constructMesh scene scale transform root parent Mesh.new = .ok m) (h32 : m.points.length ≤ 2 ^ 32) :
    (∀ t ∈ m.tris, t.i1 < m.points.length ∧ t.i2 < m.points.length ∧ t.i3 < m.points.length) ∧
    m.tris.Nodup ∧
    (∀ k P, Placed root parent k P → ∃ M, scene[k]? = some M ∧ ∀ a b c, [a, b, c] ∈ M.faces →
      ∃ t ∈ m.tris, ShowsFace scale transform P M m.points t a b c) ∧
    (∀ t ∈ m.tris, ∃ k P M a b c, Placed root parent k P ∧ scene[k]? = some M ∧ [a, b, c] ∈ M.faces ∧
      ShowsFace scale transform P M m.points t a b c) ∧
    ∀ p ∈ m.points, ∃ k P M v, Placed root parent k P ∧ scene[k]? = some M ∧ v ∈ M.vertices ∧
      p = scaled scale (if transform then P.apply v else v) := by
  rw [constructMesh_eq] at h
  obtain ⟨l, lt, h1, h2, h3, h4, h5, h6⟩ := fold_spec _ h h32
  have e1 : m.points = l := h1
  have e2 : m.tris = lt := h2
  subst e2
  refine ⟨?_, h3, fun k P hP => h6 k P ((mem_placements _ _ _ _).2 hP), ?_, ?_⟩
  · intro t ht
    obtain ⟨-, k, P, M, a, b, c, -, -, -, hs⟩ := h5 t ht
    exact ShowsFace.lt hs
  · intro t ht
    obtain ⟨-, k, P, M, a, b, c, hk, h'⟩ := h5 t ht
    exact ⟨k, P, M, a, b, c, (mem_placements _ _ _ _).1 hk, h'⟩
  · intro p hp
    obtain ⟨k, P, M, v, hk, h'⟩ := h4 p (by rw [← e1]; exact hp)
    exact ⟨k, P, M, v, (mem_placements _ _ _ _).1 hk, h'⟩

/-- C70: the points are those of the placed meshes, one block for each; within a block, one point for every millimetre cell that
has a vertex. -/
theorem C70_blocks {scene : List AiMesh} {scale : Vec3} {transform : Bool} {root : AiNode} {parent : Transform3} {m : Mesh}
    (h : constructMesh scene scale transform root parent Mesh.new = .ok m) (h32 : m.points.length ≤ 2 ^ 32) :
    ∃ L blocks, List.Forall₂ (Block scene scale transform) L blocks ∧ m.points = blocks.flatten ∧
      (∀ k P, (k, P) ∈ L ↔ Placed root parent k P) ∧ L.length = placeCount root := by
  rw [constructMesh_eq] at h
  obtain ⟨blocks, h1, h2⟩ := fold_blocks _ h h32
  exact ⟨_, blocks, h1, h2, mem_placements root parent, placements_length root parent⟩

/-- C84: how a node moves a point. -/
theorem C84_matrix (t : AiMatrix) (parent : Transform3) (v : Vec3) : (parent.mul t.pose).apply v =
    parent.apply ⟨t.a1 * v.x + t.a2 * v.y + t.a3 * v.z + t.a4, t.b1 * v.x + t.b2 * v.y + t.b3 * v.z + t.b4,
      t.c1 * v.x + t.c2 * v.y + t.c3 * v.z + t.c4⟩ := by
  rw [(C01_composition parent t.pose t.pose v).2.1]
  rfl

/-- C83: if scaling is uniform and the pose is rigid (or not applied), the corners of the triangle shown for a face are less
than 3.5 mm away from where they belong. Missing: other scalings and poses, for which it is false (`C83_near_wrong`). -/
theorem C83_near_partial {scene : List AiMesh} {s : ℝ} {transform : Bool} {root : AiNode} {parent : Transform3} {m : Mesh}
    (h : constructMesh scene ⟨s, s, s⟩ transform root parent Mesh.new = .ok m) (h32 : m.points.length ≤ 2 ^ 32)
    {k : ℕ} {P : Transform3} (hP : Placed root parent k P) (hr : transform = true → Rigid P) :
    ∃ M, scene[k]? = some M ∧ ∀ a b c, [a, b, c] ∈ M.faces → ∃ t ∈ m.tris, ∃ va vb vc pa pb pc,
      M.vertices[a]? = some va ∧ M.vertices[b]? = some vb ∧ M.vertices[c]? = some vc ∧
      m.points[t.i1]? = some pa ∧ m.points[t.i2]? = some pb ∧ m.points[t.i3]? = some pc ∧
      dist pa (scaled ⟨s, s, s⟩ (if transform then P.apply va else va)) < 3.5 / 1000 ∧
      dist pb (scaled ⟨s, s, s⟩ (if transform then P.apply vb else vb)) < 3.5 / 1000 ∧
      dist pc (scaled ⟨s, s, s⟩ (if transform then P.apply vc else vc)) < 3.5 / 1000 := by
  obtain ⟨-, -, h3, -, -⟩ := C70_shows h h32
  obtain ⟨M, hM, hf⟩ := h3 k P hP
  refine ⟨M, hM, fun a b c hm => ?_⟩
  obtain ⟨t, ht, va, vb, vc, pa, pb, pc, h1, h2, h3, h4, h5, h6, s1, s2, s3⟩ := hf a b c hm
  have key : ∀ v p, StandsFor ⟨s, s, s⟩ transform P M v p →
      dist p (scaled ⟨s, s, s⟩ (if transform then P.apply v else v)) < 3.5 / 1000 := by
    rintro v p ⟨v', -, hc, rfl⟩
    have hd : distSq (scaled ⟨s, s, s⟩ (if transform then P.apply v' else v'))
        (scaled ⟨s, s, s⟩ (if transform then P.apply v else v)) = distSq (scaled ⟨s, s, s⟩ v') (scaled ⟨s, s, s⟩ v) := by
      have e : ∀ x y : Vec3, distSq (scaled ⟨s, s, s⟩ x) (scaled ⟨s, s, s⟩ y) = s ^ 2 * distSq x y := fun x y => by
        simp only [distSq, scaled]
        ring
      rw [e, e]
      cases transform with
      | false => rfl
      | true =>
        simp only [if_true]
        rw [rigid_apply_sq (hr rfl)]
    unfold Spec.dist
    rw [hd]
    obtain ⟨x1, y1, z1, -⟩ := C13_cell_size _ _ hc
    rw [Real.sqrt_lt' (by norm_num)]
    have sq : ∀ x : ℝ, |x| < 2 / 1000 → x ^ 2 < 4 / 1000000 := fun x hx => by
      rw [← sq_abs]
      have := abs_nonneg x
      nlinarith
    have := sq _ x1
    have := sq _ y1
    have := sq _ z1
    unfold distSq
    norm_num at *
    linarith
  exact ⟨t, ht, va, vb, vc, pa, pb, pc, h1, h2, h3, h4, h5, h6, key _ _ s1, key _ _ s2, key _ _ s3⟩

/-- The identity as a node transformation. (Specification.) -/
def oneM : AiMatrix := ⟨1, 0, 0, 0, 0, 1, 0, 0, 0, 0, 1, 0⟩

/-- A quad of two triangles, one given twice, placed by a child that is moved by (1, 0, 0). (Specification, example.) -/
def quadScene : AiScene :=
  ⟨[⟨[⟨0, 0, 0⟩, ⟨1, 0, 0⟩, ⟨1, 1, 0⟩, ⟨0, 1, 0⟩, ⟨0, 0, 0.0004⟩], [[0, 1, 2], [0, 2, 3], [4, 1, 2], [0, 1]]⟩],
    .mk oneM [.mk ⟨1, 0, 0, 1, 0, 1, 0, 0, 0, 0, 1, 0⟩ [] [0]] []⟩

theorem quadScene_ok : SceneOk quadScene.meshes ⟨1, 1, 1⟩ quadScene.root Transform3.identity := by
  have hk : ∀ k P, Placed quadScene.root Transform3.identity k P → k = 0 := by
    intro k P h
    cases h with
    | here h => simp at h
    | child hc h =>
      simp only [List.mem_singleton] at hc
      subst hc
      cases h with
      | here h => simpa using h
      | child hc => simp at hc
  intro k P h
  rw [hk k P h]
  refine ⟨_, rfl, ?_, ?_⟩
  · intro v hv
    simp only [List.mem_cons, List.not_mem_nil, or_false] at hv
    rcases hv with rfl | rfl | rfl | rfl | rfl <;> norm_num [InIntRange, scaled, abs_lt]
  · intro a b c h
    simp only [List.mem_cons, List.cons.injEq, List.not_mem_nil, or_false, and_true, reduceCtorEq, and_false] at h
    simp only [List.length_cons, List.length_nil]
    omega

/-- The example scene is well-formed, and its mesh is placed by the child, with a rigid pose. -/
example : SceneOk quadScene.meshes ⟨1, 1, 1⟩ quadScene.root Transform3.identity ∧
    Placed quadScene.root Transform3.identity 0 (((Transform3.identity.mul oneM.pose)).mul
      (AiMatrix.pose ⟨1, 0, 0, 1, 0, 1, 0, 0, 0, 0, 1, 0⟩)) ∧
    Rigid (((Transform3.identity.mul oneM.pose)).mul (AiMatrix.pose ⟨1, 0, 0, 1, 0, 1, 0, 0, 0, 0, 1, 0⟩)) := by
  refine ⟨quadScene_ok, .child (List.mem_singleton.2 rfl) (.here (List.mem_singleton.2 rfl)), ?_⟩
  unfold Rigid
  rw [orth_iff]
  simp [Transform3.mul, Transform3.identity, Mat3.mul, Mat3.mulVec, Mat3.identity, oneM, AiMatrix.pose]

/-- C83 in general: a node that scales by 1000 leaves a vertex half a metre away from where it belongs, since cells are taken
before the pose is applied. -/
theorem C83_near_wrong : ∃ (scene : List AiMesh) (root : AiNode) (m : Mesh) (P : Transform3) (M : AiMesh) (v : Vec3),
    constructMesh scene ⟨1, 1, 1⟩ true root Transform3.identity Mesh.new = .ok m ∧ Placed root Transform3.identity 0 P ∧
    scene[0]? = some M ∧ v ∈ M.vertices ∧ (∃ f ∈ M.faces, f = [0, 1, 2] ∧ M.vertices[1]? = some v) ∧
    ∀ p ∈ m.points, 1 / 2 ≤ Spec.dist p (P.apply v) := by
  let T : AiMatrix := ⟨1000, 0, 0, 0, 0, 1000, 0, 0, 0, 0, 1000, 0⟩
  let M : AiMesh := ⟨[⟨0, 0, 0⟩, ⟨0.0005, 0, 0⟩, ⟨0, 1, 0⟩], [[0, 1, 2]]⟩
  have k0 : key ⟨1, 1, 1⟩ ⟨0, 0, 0⟩ = .ok (0, 0, 0) := by
    rw [key_ok (by norm_num [InIntRange, scaled])]
    norm_num [Mesh.key, scaled, trunc]
  have k1 : key ⟨1, 1, 1⟩ ⟨0.0005, 0, 0⟩ = .ok (0, 0, 0) := by
    rw [key_ok (by norm_num [InIntRange, scaled, abs_lt])]
    norm_num [Mesh.key, scaled, trunc]
  have k2 : key ⟨1, 1, 1⟩ ⟨0, 1, 0⟩ = .ok (0, 1000, 0) := by
    rw [key_ok (by norm_num [InIntRange, scaled, abs_lt])]
    norm_num [Mesh.key, scaled, trunc]
  have hm : constructMesh [M] ⟨1, 1, 1⟩ true (.mk T [] [0]) Transform3.identity Mesh.new =
      .ok ⟨[⟨0, 0, 0⟩, ⟨0, 1000, 0⟩], [⟨0, 0, 1⟩], [], 0, 0⟩ := by
    have p0 : place ⟨1, 1, 1⟩ true (Transform3.identity.mul T.pose) ⟨0, 0, 0⟩ = ⟨0, 0, 0⟩ := by
      ext <;> norm_num [place, T, Transform3.apply, Transform3.mul, Transform3.identity, AiMatrix.pose, Mat3.mul, Mat3.mulVec,
        Mat3.identity]
    have p2 : place ⟨1, 1, 1⟩ true (Transform3.identity.mul T.pose) ⟨0, 1, 0⟩ = ⟨0, 1000, 0⟩ := by
      ext <;> norm_num [place, T, Transform3.apply, Transform3.mul, Transform3.identity, AiMatrix.pose, Mat3.mul, Mat3.mulVec,
        Mat3.identity]
    have kb : (((0, 1000, 0) : ℤ × ℤ × ℤ) == (0, 0, 0)) = false := by decide
    rw [constructMesh, constructChildren]
    simp [kb, bind, Except.bind, pure, Except.pure, addMesh, vget, M, vertexLoop, k0, k1, k2, p0, p2, List.lookup, faceLoop,
      Mesh.addPoint, Mesh.addTriangle, Mesh.invalidateCache, Mesh.new, Shapes.asUInt, toInt32, u32]
  refine ⟨[M], .mk T [] [0], _, Transform3.identity.mul T.pose, M, ⟨0.0005, 0, 0⟩, hm, .here (List.mem_singleton.2 rfl), rfl,
    List.mem_cons_of_mem _ (List.mem_cons_self ..), ⟨_, List.mem_singleton.2 rfl, rfl, rfl⟩, ?_⟩
  have hv : (Transform3.identity.mul T.pose).apply ⟨0.0005, 0, 0⟩ = ⟨1 / 2, 0, 0⟩ := by
    ext <;> norm_num [T, Transform3.apply, Transform3.mul, Transform3.identity, AiMatrix.pose, Mat3.mul, Mat3.mulVec,
      Mat3.identity]
  rw [hv]
  intro p hp
  unfold Spec.dist
  apply Real.le_sqrt_of_sq_le
  simp only [List.mem_cons, List.not_mem_nil, or_false] at hp
  rcases hp with rfl | rfl <;> norm_num [distSq]

/-- C84: a file that cannot be loaded gives no shape. -/
theorem C84_failed (name : List Char) (scale : Vec3) : readMeshFile none name scale = .ok none := rfl

/-- C84: for a loaded scene, a file name of less than three characters raises an exception. -/
theorem C84_short (s : AiScene) {name : List Char} (scale : Vec3) (h : name.length < 3) :
    readMeshFile (some s) name scale = .error .exception := by
  unfold readMeshFile
  rw [show substr name (sizeMinus name 3) = .error .exception from ?_]
  · rfl
  · unfold substr sizeMinus
    rw [if_neg (by omega : ¬ 3 ≤ name.length), if_neg (by omega)]

/-- C84: for any longer file name a well-formed scene gives a shape. -/
theorem C84_ok {s : AiScene} {name : List Char} {scale : Vec3} (h : 3 ≤ name.length)
    (hs : SceneOk s.meshes scale s.root Transform3.identity) : ∃ sh, readMeshFile (some s) name scale = .ok (some sh) := by
  have hs' : ∀ parent, SceneOk s.meshes scale s.root parent := by
    intro parent k P hP
    obtain ⟨P', hP'⟩ := placed_parent Transform3.identity hP
    exact hs k P' hP'
  obtain ⟨e, he⟩ : ∃ e, substr name (sizeMinus name 3) = .ok e := by
    unfold substr sizeMinus
    rw [if_pos h, if_pos (by omega)]
    exact ⟨_, rfl⟩
  unfold readMeshFile
  simp only [he]
  rw [Shapes.ok_bind, Shapes.ok_bind]
  split
  · obtain ⟨m, hm⟩ := C70_ok s.meshes scale (!decide (e = "3ds".toList)) s.root _ (hs' _)
    rw [hm]
    exact ⟨_, rfl⟩
  · obtain ⟨m, hm⟩ := C70_ok s.meshes scale (!decide (e = "3ds".toList)) s.root _ (hs' _)
    rw [hm]
    exact ⟨_, rfl⟩

/-- C84: a file name that ends with neither 3ds nor dae: every mesh is shown with its pose in the tree. -/
theorem C84_other {s : AiScene} {stem : List Char} {a b c : Char} {scale : Vec3} {sh : Shape}
    (h : readMeshFile (some s) (stem ++ [a, b, c]) scale = .ok (some sh)) (h3 : [a, b, c] ≠ "3ds".toList)
    (hd : [a, b, c] ≠ "dae".toList) (h32 : sh.mesh.points.length ≤ 2 ^ 32) :
    ShowsScene s.meshes s.root scale id sh.mesh.points sh.mesh.tris := by
  unfold readMeshFile at h
  simp only [substr_last] at h
  rw [Shapes.ok_bind, Shapes.ok_bind, if_neg hd, decide_eq_false h3] at h
  obtain ⟨m, hm, rfl⟩ := read_result h
  obtain ⟨-, -, h1, h2, -⟩ := C70_shows hm h32
  exact ⟨h1, h2⟩

/-- C84: a file name that ends with 3ds: every mesh is shown as it is, whatever its pose in the tree. -/
theorem C84_3ds {s : AiScene} {stem : List Char} {scale : Vec3} {sh : Shape}
    (h : readMeshFile (some s) (stem ++ ['3', 'd', 's']) scale = .ok (some sh)) (h32 : sh.mesh.points.length ≤ 2 ^ 32) :
    ShowsScene s.meshes s.root scale (fun _ => Transform3.identity) sh.mesh.points sh.mesh.tris := by
  unfold readMeshFile at h
  simp only [substr_last] at h
  rw [Shapes.ok_bind, Shapes.ok_bind, if_neg (by decide), decide_eq_true (by decide)] at h
  obtain ⟨m, hm, rfl⟩ := read_result h
  obtain ⟨-, -, h1, h2, -⟩ := C70_shows hm h32
  refine ⟨fun k P hP => ?_, fun t ht => ?_⟩
  · obtain ⟨M, hM, hf⟩ := h1 k P hP
    refine ⟨M, hM, fun a b c hm => ?_⟩
    obtain ⟨t, ht, hs⟩ := hf a b c hm
    exact ⟨t, ht, showsFace_identity hs⟩
  · obtain ⟨k, P, M, a, b, c, hP, hM, hf, hs⟩ := h2 t ht
    exact ⟨k, P, M, a, b, c, hP, hM, hf, showsFace_identity hs⟩

/-- C84: a file name that ends with dae, where the matrix of the root is `r` times an orthogonal matrix: every mesh is shown
with its pose in the tree whose root has no transformation, scaled by `r`. Rotation and translation of the root are dropped. -/
theorem C84_dae {t : AiMatrix} {children : List AiNode} {meshes : List ℕ} {scene : List AiMesh} {stem : List Char}
    {scale : Vec3} {sh : Shape} {r : ℝ} {Q : Mat3} (hr : 0 < r) (hQ : Orthogonal Q)
    (ht : M t.pose.R = r • M Q)
    (h : readMeshFile (some ⟨scene, .mk t children meshes⟩) (stem ++ ['d', 'a', 'e']) scale = .ok (some sh))
    (h32 : sh.mesh.points.length ≤ 2 ^ 32) :
    ShowsScene scene (.mk oneM children meshes) scale (scaledPose r) sh.mesh.points sh.mesh.tris := by
  unfold readMeshFile at h
  simp only [substr_last] at h
  rw [Shapes.ok_bind, Shapes.ok_bind, if_pos (by decide), decide_eq_false (by decide)] at h
  obtain ⟨m, hm, rfl⟩ := read_result h
  obtain ⟨-, -, h1, h2, -⟩ := C70_shows hm h32
  have one : Transform3.identity.mul oneM.pose = Transform3.identity := by
    ext <;> simp [Transform3.mul, Transform3.identity, Mat3.mul, Mat3.mulVec, Mat3.identity, oneM, AiMatrix.pose]
  have sc : ∀ P : Transform3, (scaledPose r Transform3.identity).mul P = scaledPose r P := fun P => by
    ext <;> simp [Transform3.mul, Transform3.identity, Mat3.mul, Mat3.mulVec, Mat3.identity, scaledPose]
  have hp := fun k P => placed_root (children := children) (meshes := meshes) (t := t) (t' := oneM)
    (parent := Transform3.inverse ⟨t.pose.R.normalized, t.pose.t⟩) (parent' := Transform3.identity)
    (A := scaledPose r Transform3.identity) (by rw [one, sc]; exact dae_pose hr hQ ht) k P
  refine ⟨fun k P hP => ?_, fun t ht => ?_⟩
  · rw [← sc]
    exact h1 k _ ((hp k _).2 ⟨P, hP, rfl⟩)
  · obtain ⟨k, P, M, a, b, c, hP, h'⟩ := h2 t ht
    obtain ⟨P', hP', rfl⟩ := (hp k P).1 hP
    rw [sc] at h'
    exact ⟨k, P', M, a, b, c, hP', h'⟩

/-- A root that turns by a right angle about x, scales from centimetres to metres and moves; the hypotheses of `C84_dae`. -/
example : Orthogonal ⟨1, 0, 0, 0, 0, -1, 0, 1, 0⟩ ∧
    M (AiMatrix.pose ⟨0.01, 0, 0, 5, 0, 0, -0.01, 6, 0, 0.01, 0, 7⟩).R = (0.01 : ℝ) • M ⟨1, 0, 0, 0, 0, -1, 0, 1, 0⟩ := by
  constructor
  · rw [orth_iff]; norm_num
  · ext i j
    fin_cases i <;> fin_cases j <;> norm_num [M, AiMatrix.pose]

/-- The quad is read from files of each kind. -/
example : ∀ name ∈ ["a.dae".toList, "a.3ds".toList, "a.obj".toList], ∃ sh, readMeshFile (some quadScene) name ⟨1, 1, 1⟩ =
    .ok (some sh) := by
  intro name h
  refine C84_ok ?_ quadScene_ok
  simp only [List.mem_cons, List.not_mem_nil, or_false] at h
  rcases h with rfl | rfl | rfl <;> decide

end Geo
