import Verif.Lemmas.RoundedImport
import Verif.Props.RoundedNormalize
import Verif.Props.Import

/-!
# C134: import in floating point arithmetic
-/

namespace Geo
open Spec Import

variable {u : ℝ} {rnd : ℝ → ℝ}

/-- C134. Without rounding the functions are those of `Model/Import`. -/
theorem C134_exact (scene : List AiMesh) (scale : Vec3) (transform : Bool) (root : AiNode) (P : Transform3) (m : Mesh)
    (s : Option AiScene) (name : List Char) :
    RoundedImport.constructMesh id scene scale transform root P m = constructMesh scene scale transform root P m ∧
    RoundedImport.readMeshFile id s name scale = readMeshFile s name scale := by
  refine ⟨RoundedImport.construct_id _ _ _ _ _ _, ?_⟩
  unfold RoundedImport.readMeshFile readMeshFile
  simp only [RoundedImport.construct_id]
  rfl

/-- C134. The mesh made of a tree of nodes. If the vertices are put in the same cells, the rounded functions fail if and only if the exact
ones do, and otherwise give the same triangles; the coordinates of the points are off by at most `(1 + u)^(4 n + 5) - 1` times the largest
magnitude of the terms they are made of, for meshes at most `n` levels down. -/
theorem C134_import (hr : RelErr u rnd) {scene : List AiMesh} {scale : Vec3} {transform : Bool} {root : AiNode} {P : Transform3} {n : ℕ}
    {B : ℝ} (hk : KeysAgree rnd scene scale root) (hb : TermsWithin B n scene scale transform root (absPose P)) :
    (∀ m, constructMesh scene scale transform root P Mesh.new = .ok m →
      ∃ m', RoundedImport.constructMesh rnd scene scale transform root P Mesh.new = .ok m' ∧
        CloseMesh (((1 + u) ^ (4 * n + 5) - 1) * B) m' m) ∧
    ∀ f, constructMesh scene scale transform root P Mesh.new = .error f →
      RoundedImport.constructMesh rnd scene scale transform root P Mesh.new = .error f := by
  have := RoundedImport.import_rel (j := 0) hr (by simpa using RoundedImport.PoseW.self P) hk hb
  exact ⟨fun m h => this.ok h, fun f h => this.error h⟩

/-- C134. When vertices are put in the same cells: if they are clear of the borders, and, in double precision, if they are `float`s and the
scale is a whole number of thousandths. -/
theorem C134_keys :
    (∀ {rnd : ℝ → ℝ} {u : ℝ}, RelErr u rnd → u ≤ 1 / 1000 → ∀ s x, ClearKey u s x → SameKey rnd s x) ∧
    ∀ (s x : ℝ) (N : ℤ), 1000 * s = N → |N| ≤ 2 ^ 29 → toFloat x = x → SameKey toDouble s x :=
  ⟨fun hr hu _ _ h => RoundedImport.same_key hr hu h, fun _ _ _ hs hN hx => RoundedImport.same_key_float hs hN hx⟩

/-- C134. On a border rounding does change the cell: with the scale 0.009, as a `double` a little below that, a vertex at 1 is put in cell 9
instead of 8. -/
theorem C134_border : ¬ SameKey toDouble (toDouble 0.009) 1 := by
  have x : toDouble 0.009 = 5188146770730811 / 2 ^ 59 := by
    have := toDouble_eq (x := 0.009) (-59) (m := 5188146770730811) (by norm_num) (by norm_num) (by norm_num [abs_lt])
    rw [this]; norm_num
  have a : toDouble (1000 * (5188146770730811 / 2 ^ 59)) = 9 := by
    have := toDouble_eq (x := 1000 * (5188146770730811 / 2 ^ 59)) (-49) (m := 9 * 2 ^ 49) (by norm_num) (by norm_num) (by norm_num [abs_lt])
    rw [this]; norm_num
  have b : toDouble 9 = 9 := by
    have := toDouble_eq (x := 9) (-49) (m := 9 * 2 ^ 49) (by norm_num) (by norm_num) (by norm_num)
    rw [this]; norm_num
  unfold SameKey
  rw [x, a, mul_one, mul_one, b]
  unfold trunc
  rw [if_pos (by norm_num), if_pos (by norm_num)]
  have f1 : ⌊(9 : ℝ)⌋ = 9 := by norm_num
  have f2 : ⌊(1000 * (5188146770730811 / 2 ^ 59) : ℝ)⌋ = 8 := by
    rw [Int.floor_eq_iff]
    norm_num
  rw [f1, f2]
  norm_num

/-- C134. Files with names that do not end with dae. -/
theorem C134_file (hr : RelErr u rnd) {s : AiScene} {stem : List Char} {a b c : Char} {scale : Vec3} {n : ℕ} {B : ℝ}
    (hd : [a, b, c] ≠ "dae".toList) (hk : KeysAgree rnd s.meshes scale s.root)
    (hb : TermsWithin B n s.meshes scale (!(decide ([a, b, c] = "3ds".toList))) s.root (absPose Transform3.identity)) {sh : Shape}
    (h : readMeshFile (some s) (stem ++ [a, b, c]) scale = .ok (some sh)) :
    ∃ sh', RoundedImport.readMeshFile rnd (some s) (stem ++ [a, b, c]) scale = .ok (some sh') ∧
      CloseMesh (((1 + u) ^ (4 * n + 5) - 1) * B) sh'.mesh sh.mesh := by
  unfold readMeshFile at h
  simp only [substr_last] at h
  rw [Shapes.ok_bind, Shapes.ok_bind, if_neg hd] at h
  obtain ⟨m, hm, rfl⟩ := read_result h
  obtain ⟨m', hm', hc⟩ := (C134_import hr hk hb).1 m hm
  refine ⟨Shape.new.setMesh m', ?_, hc⟩
  unfold RoundedImport.readMeshFile
  simp only [substr_last]
  rw [Shapes.ok_bind, Shapes.ok_bind, if_neg hd, hm']
  rfl

/-- C134. Files with names that end with dae. The matrix of the root has unit columns stretched by positive factors; the parent pose
undoes it up to `(1 + u)^7`. -/
theorem C134_dae (hr : RelErr u rnd) (hu : u ≤ 1 / 1000) {s : AiScene} {stem : List Char} {scale : Vec3} {n : ℕ} {B : ℝ} {Q : Mat3}
    {l : Fin 3 → ℝ} (hQ : Stretched Q s.root.trafo.pose.R l) (hQ1 : UnitColumns Q) (hk : KeysAgree rnd s.meshes scale s.root)
    (hb : TermsWithin B n s.meshes scale true s.root
      ⟨absMat Q.transpose, (absMat Q.transpose).mulVec (absVec s.root.trafo.pose.t)⟩) {sh : Shape}
    (h : readMeshFile (some s) (stem ++ ['d', 'a', 'e']) scale = .ok (some sh)) :
    ∃ sh', RoundedImport.readMeshFile rnd (some s) (stem ++ ['d', 'a', 'e']) scale = .ok (some sh') ∧
      CloseMesh (((1 + u) ^ (4 * n + 12) - 1) * B) sh'.mesh sh.mesh := by
  have hn : s.root.trafo.pose.R.normalized = Q := by
    have e : RelErr 0 (id : ℝ → ℝ) := fun x => by simp
    obtain ⟨⟨⟨a, -⟩, ⟨b, -⟩, ⟨c, -⟩, ⟨d, -⟩, ⟨f, -⟩, ⟨g, -⟩, ⟨i, -⟩, ⟨j, -⟩, ⟨k, -⟩⟩, -⟩ :=
      RoundedImport.rootW e (by norm_num) hQ hQ1 s.root.trafo.pose.t
    have z : ∀ {p q A : ℝ}, |p - q| ≤ ((1 + 0) ^ 7 - 1) * A → p = q := fun h => by
      norm_num at h
      linarith
    ext
    exacts [z a, z d, z i, z b, z f, z j, z c, z g, z k]
  unfold readMeshFile at h
  simp only [substr_last] at h
  rw [Shapes.ok_bind, Shapes.ok_bind, if_pos (by decide), decide_eq_false (by decide), Bool.not_false, hn] at h
  obtain ⟨m, hm, rfl⟩ := read_result h
  obtain ⟨m', hm', hc⟩ := (RoundedImport.import_rel hr (RoundedImport.rootW hr hu hQ hQ1 s.root.trafo.pose.t) hk hb).ok hm
  refine ⟨Shape.new.setMesh m', ?_, hc⟩
  unfold RoundedImport.readMeshFile
  simp only [substr_last]
  rw [Shapes.ok_bind, Shapes.ok_bind, if_pos (by decide), decide_eq_false (by decide), Bool.not_false, hm']
  rfl

theorem quad_path : ∀ k path, PlacedBy quadScene.root k path → k = 0 ∧ path = [oneM, ⟨1, 0, 0, 1, 0, 1, 0, 0, 0, 0, 1, 0⟩] := by
  intro k P h
  cases h with
  | here h => simp at h
  | child hc h =>
    simp only [List.mem_singleton] at hc
    subst hc
    cases h with
    | here h => simpa using h
    | child hc => simp at hc

/-- The vertices of the example scene are `float`s, or clear of the borders. -/
theorem quad_keys : KeysAgree toDouble quadScene.meshes ⟨1, 1, 1⟩ quadScene.root := by
  have f0 : toFloat 0 = 0 := by simp [toFloat]
  have f1 : toFloat 1 = 1 := by
    unfold toFloat
    rw [if_neg one_ne_zero, abs_one, Int.log_one_right]
    have := nearestEven_int 8388608
    norm_num at this ⊢
    rw [this]
    norm_num
  have k0 : SameKey toDouble 1 0 := C134_keys.2 1 0 1000 (by norm_num) (by norm_num) f0
  have k1 : SameKey toDouble 1 1 := C134_keys.2 1 1 1000 (by norm_num) (by norm_num) f1
  have k2 : SameKey toDouble 1 0.0004 := by
    refine C134_keys.1 C93_roundings.1 (by norm_num) _ _ fun k hk => ?_
    rcases lt_or_gt_of_ne hk with h | h
    · have : (k : ℝ) ≤ -1 := by exact_mod_cast Int.le_sub_one_of_lt h
      rw [abs_of_pos (by linarith : (0 : ℝ) < 1000 * 1 * 0.0004 - k)]
      norm_num
      linarith
    · have : (1 : ℝ) ≤ k := by exact_mod_cast h
      rw [abs_of_neg (by linarith : (1000 * 1 * 0.0004 - k : ℝ) < 0)]
      norm_num
      linarith
  intro k path h m hm v hv
  obtain ⟨rfl, rfl⟩ := quad_path k path h
  obtain rfl := Option.some.inj hm
  simp only [List.mem_cons, List.not_mem_nil, or_false] at hv
  rcases hv with rfl | rfl | rfl | rfl | rfl
  exacts [⟨k0, k0, k0⟩, ⟨k1, k0, k0⟩, ⟨k1, k1, k0⟩, ⟨k0, k1, k0⟩, ⟨k0, k0, k2⟩]

theorem quad_terms {A : Transform3} (hA : A = Transform3.identity) :
    TermsWithin 2 2 quadScene.meshes ⟨1, 1, 1⟩ true quadScene.root A := by
  subst hA
  intro k path h
  obtain ⟨rfl, rfl⟩ := quad_path k path h
  refine ⟨le_rfl, fun m hm v hv => ?_⟩
  obtain rfl := Option.some.inj hm
  simp only [List.mem_cons, List.not_mem_nil, or_false] at hv
  rcases hv with rfl | rfl | rfl | rfl | rfl <;>
    norm_num [magnitude, absChain, absPose, absMat, absVec, scaled, oneM, AiMatrix.pose, Transform3.identity, Mat3.identity,
      Transform3.mul, Mat3.mul, Mat3.mulVec, Transform3.apply]

/-- The example scene in double precision, at scale 1: the vertices are `float`s or clear of the borders, the terms at most 2, and the mesh
two levels down. So the rounded function gives a mesh whose points are within 4e-15 of those of the exact one. -/
example : ∃ m m', constructMesh quadScene.meshes ⟨1, 1, 1⟩ true quadScene.root Transform3.identity Mesh.new = .ok m ∧
    RoundedImport.constructMesh toDouble quadScene.meshes ⟨1, 1, 1⟩ true quadScene.root Transform3.identity Mesh.new = .ok m' ∧
    CloseMesh (4 / 10 ^ 15) m' m := by
  have hi : absPose Transform3.identity = Transform3.identity := by
    ext <;> simp [absPose, absMat, absVec, Transform3.identity, Mat3.identity]
  obtain ⟨m, hm⟩ := C70_ok _ _ true _ _ quadScene_ok
  obtain ⟨m', hm', ht, hp⟩ := (C134_import C93_roundings.1 quad_keys (quad_terms hi)).1 m hm
  refine ⟨m, m', hm, hm', ht, hp.imp fun p q h => ?_⟩
  have e : (((1 + 1 / 2 ^ 53 : ℝ)) ^ (4 * 2 + 5) - 1) * 2 ≤ 4 / 10 ^ 15 := by norm_num
  exact ⟨h.1.trans e, h.2.1.trans e, h.2.2.trans e⟩

/-- The same for the example scene as a dae file. -/
example : ∃ sh sh', readMeshFile (some quadScene) "quad.dae".toList ⟨1, 1, 1⟩ = .ok (some sh) ∧
    RoundedImport.readMeshFile toDouble (some quadScene) "quad.dae".toList ⟨1, 1, 1⟩ = .ok (some sh') ∧
    CloseMesh (5 / 10 ^ 15) sh'.mesh sh.mesh := by
  obtain ⟨sh, h⟩ := C84_ok (name := "quad.dae".toList) (by decide) quadScene_ok
  have hs : Stretched Mat3.identity quadScene.root.trafo.pose.R fun _ => 1 := by
    refine ⟨fun _ => one_pos, fun i j => ?_⟩
    rw [one_mul]
    fin_cases i <;> fin_cases j <;> simp [M, quadScene, AiNode.trafo, oneM, AiMatrix.pose, Mat3.identity]
  have h1 : UnitColumns Mat3.identity := by
    intro j
    fin_cases j <;> simp [M, Mat3.identity]
  obtain ⟨sh', h', ht, hp⟩ := C134_dae C93_roundings.1 (by norm_num) (stem := "quad.".toList) hs h1 quad_keys (quad_terms (by
    ext <;> simp [absMat, absVec, Mat3.mulVec, Mat3.transpose, Transform3.identity, Mat3.identity, quadScene, AiNode.trafo, oneM,
      AiMatrix.pose])) h
  refine ⟨sh, sh', h, h', ht, hp.imp fun p q h => ?_⟩
  have e : (((1 + 1 / 2 ^ 53 : ℝ)) ^ (4 * 2 + 12) - 1) * 2 ≤ 5 / 10 ^ 15 := by norm_num
  exact ⟨h.1.trans e, h.2.1.trans e, h.2.2.trans e⟩

end Geo
