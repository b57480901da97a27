import Verif.Lemmas.Scene
import Verif.Props.DepthCameraRender

/-!
# Depth images of several objects (C107)
-/

namespace Geo
open Spec Raster

/-! ## C107 -/

/-- C107, what a client gets: any client of `render` that does not stop receives the pixels that the recorder writes down, in the same
order, whatever its state. -/
theorem C107_clients {σ : Type} (k : Sink σ) (hk : ∀ s, k.stopped s = false) (c : Camera) (w h : ℕ) (culling : Bool) (m : Mesh)
    (T : Transform3) {calls : List PixelCall} (e : render recorder c w h m T culling [] = .ok calls) (s : σ) :
    render k c w h m T culling s = k.pixels calls s :=
  render_recorded k (fun _ => True) (fun _ _ _ _ _ => trivial) (fun s _ => hk s) c w h culling m T e s trivial

/-- C107, in part: objects with pointers other than null are drawn into one image. At a pixel that is empty at first, and where every object draws
only finite positive depths: if no object alone shows anything, the pixel stays empty; otherwise the image holds the least depth `v`
that an object alone shows, the pointer map holds the pointer of the first object that shows it, and the triangle map the triangle
that this object alone shows. Missing: objects that draw other depths, for which it is false (`C107_nan_wrong`). -/
theorem C107_scene_partial (c : Camera) {K : ℝ} (hc : Moderate c K) (image : DepthImage) (xs : List SceneObject) (hne : xs ≠ [])
    (hv : ∀ o ∈ xs, Valid o.mesh.points o.mesh.tris ∧ Near o.mesh o.pose K ∧ o.pointer ≠ 0) {x y : ℕ} (hx : x < image.cols)
    (hy : y < image.rows) (hclean : ∀ o ∈ xs, CleanAt c image.cols image.rows o x y) (hi : image.at' y x = .fin 0) :
    ∃ r, paintScene c xs ⟨image, 0, [], [], false⟩ = .ok r ∧ (∀ o ∈ xs, ∃ s, alone c image o = .ok s) ∧
      (((∀ o ∈ xs, ∀ s, alone c image o = .ok s → s.image.at' y x = .fin 0) ∧ r.image.at' y x = .fin 0 ∧
          entry r.pointerMap x y = some 0 ∧ entry r.triangleMap x y = some (-1)) ∨
        ∃ pre o post s v, xs = pre ++ o :: post ∧ alone c image o = .ok s ∧ 0 < v ∧ s.image.at' y x = .fin v ∧
          r.image.at' y x = .fin v ∧ entry r.pointerMap x y = some o.pointer ∧
          entry r.triangleMap x y = entry s.triangleMap x y ∧
          (∀ o' ∈ pre, ∀ s, alone c image o' = .ok s → s.image.at' y x = .fin 0 ∨ ∃ v', s.image.at' y x = .fin v' ∧ v < v') ∧
          (∀ o' ∈ post, ∀ s, alone c image o' = .ok s → s.image.at' y x = .fin 0 ∨ ∃ v', s.image.at' y x = .fin v' ∧ v ≤ v')) := by
  have hrec : ∀ o ∈ xs, ∃ calls, render recorder c image.cols image.rows o.mesh o.pose true [] = .ok calls ∧
      (∀ p ∈ calls, InImage image.cols image.rows p.x p.y) ∧ ∀ p ∈ calls, At x y p → ∃ d, 0 < d ∧ p.depth = .fin d := by
    intro o ho
    obtain ⟨v1, v2, -⟩ := hv o ho
    obtain ⟨calls, e1, e2⟩ := recorder_ok c image.cols image.rows true hc v1 v2
    exact ⟨calls, e1, e2, hclean o ho calls e1⟩
  have hcan := canvas_new image one_ne_zero
  have hstart : paintScene c xs ⟨image, 0, [], [], false⟩ = paintScene c xs (.new image 1 [] []) := by
    cases xs with
    | nil => exact absurd rfl hne
    | cons o os =>
      have hp := (hv o List.mem_cons_self).2.2
      simp only [paintScene, rasterize]
      rw [hcan.new, new_pointer image hp one_ne_zero]
      rfl
  obtain ⟨r, e1, e2⟩ := scene_pixel c hi xs (fun o ho => (hv o ho).2.2) hrec _ hcan 0 hi le_rfl
  refine ⟨r, hstart.trans e1, fun o ho => ?_, ?_⟩
  · obtain ⟨v1, v2, -⟩ := hv o ho
    obtain ⟨s, f, -⟩ := rasterize_ok (image := image) (pointer := o.pointer) (pm := []) (tm := []) hc v1 v2 (by simp) (by simp)
    exact ⟨s, f⟩
  · rcases e2 with ⟨a1, a2, a3, a4⟩ | ⟨pre, o, post, s, v, b1, b2, b3, -, b5, b6, b7, b8, b9, b10⟩
    · left
      refine ⟨fun o ho s hs => (a4 o ho s hs).resolve_right (fun ⟨_, _, g, _⟩ => lt_irrefl _ g), a1, ?_, ?_⟩
      · rw [a3]
        simp [entry, DefaultResult.new, DefaultResult.misfit, DefaultResult.resize, hx, hy]
      · rw [a2]
        simp [entry, DefaultResult.new, DefaultResult.misfit, DefaultResult.resize, hx, hy]
    · exact .inr ⟨pre, o, post, s, v, b1, b2, b3, b5, b6, b7, b8, b9, b10⟩

/-- C107, in part: under the same conditions the order of the objects does not matter for the image. -/
theorem C107_order_partial (c : Camera) {K : ℝ} (hc : Moderate c K) (image : DepthImage) {xs xs' : List SceneObject}
    (hperm : xs.Perm xs') (hv : ∀ o ∈ xs, Valid o.mesh.points o.mesh.tris ∧ Near o.mesh o.pose K ∧ o.pointer ≠ 0) {x y : ℕ}
    (hx : x < image.cols) (hy : y < image.rows) (hclean : ∀ o ∈ xs, CleanAt c image.cols image.rows o x y)
    (hi : image.at' y x = .fin 0) :
    ∃ r r', paintScene c xs ⟨image, 0, [], [], false⟩ = .ok r ∧ paintScene c xs' ⟨image, 0, [], [], false⟩ = .ok r' ∧
      r.image.at' y x = r'.image.at' y x := by
  by_cases hne : xs = []
  · subst hne
    rw [List.nil_perm.1 hperm]
    exact ⟨_, _, rfl, rfl, rfl⟩
  have hne' : xs' ≠ [] := fun h => hne (by rw [h] at hperm; exact List.perm_nil.1 hperm)
  obtain ⟨r, e1, e2, e3⟩ := C107_scene_partial c hc image xs hne hv hx hy hclean hi
  obtain ⟨r', f1, f2, f3⟩ := C107_scene_partial c hc image xs' hne' (fun o ho => hv o (hperm.mem_iff.2 ho)) hx hy
    (fun o ho => hclean o (hperm.mem_iff.2 ho)) hi
  refine ⟨r, r', e1, f1, ?_⟩
  have all : ∀ {l pre post : List SceneObject} {o : SceneObject} {s : DefaultResult} {v : ℝ}, l = pre ++ o :: post →
      alone c image o = .ok s → s.image.at' y x = .fin v →
      (∀ o' ∈ pre, ∀ s, alone c image o' = .ok s → s.image.at' y x = .fin 0 ∨ ∃ v', s.image.at' y x = .fin v' ∧ v < v') →
      (∀ o' ∈ post, ∀ s, alone c image o' = .ok s → s.image.at' y x = .fin 0 ∨ ∃ v', s.image.at' y x = .fin v' ∧ v ≤ v') →
      ∀ o' ∈ l, ∀ s, alone c image o' = .ok s → s.image.at' y x = .fin 0 ∨ ∃ v', s.image.at' y x = .fin v' ∧ v ≤ v' := by
    intro l pre post o s v hl hs hsv h1 h2 o' ho' s' hs'
    subst hl
    rcases List.mem_append.1 ho' with ho' | ho'
    · exact (h1 o' ho' s' hs').imp id fun ⟨v', g1, g2⟩ => ⟨v', g1, g2.le⟩
    · rcases List.mem_cons.1 ho' with rfl | ho'
      · rw [hs, Except.ok.injEq] at hs'
        subst hs'
        exact .inr ⟨v, hsv, le_rfl⟩
      · exact h2 o' ho' s' hs'
  rcases e3 with ⟨a1, a2, -⟩ | ⟨pre, o, post, s, v, b1, b2, b3, b4, b5, -, -, b6, b7⟩
  · rcases f3 with ⟨-, a3, -⟩ | ⟨pre, o, post, s, v, b1, b2, b3, b4, -⟩
    · rw [a2, a3]
    · have := a1 o (hperm.mem_iff.2 (by rw [b1]; simp)) s b2
      rw [b4, Fl.fin.injEq] at this
      exact absurd this b3.ne'
  · have m1 : o ∈ xs' := hperm.mem_iff.1 (by rw [b1]; simp)
    rcases f3 with ⟨a3, -⟩ | ⟨pre', o', post', s', v', c1, c2, c3, c4, c5, -, -, c6, c7⟩
    · have := a3 o m1 s b2
      rw [b4, Fl.fin.injEq] at this
      exact absurd this b3.ne'
    · have m2 : o' ∈ xs := hperm.mem_iff.2 (by rw [c1]; simp)
      have k1 : v ≤ v' := by
        rcases all b1 b2 b4 b6 b7 o' m2 s' c2 with g | ⟨u, g1, g2⟩
        · rw [c4, Fl.fin.injEq] at g; exact absurd g c3.ne'
        · rw [c4, Fl.fin.injEq] at g1; linarith
      have k2 : v' ≤ v := by
        rcases all c1 c2 c4 c6 c7 o m1 s b2 with g | ⟨u, g1, g2⟩
        · rw [b4, Fl.fin.injEq] at g; exact absurd g b3.ne'
        · rw [b4, Fl.fin.injEq] at g1; linarith
      rw [b5, c5, le_antisymm k1 k2]

/-- A mesh of one triangle. Used in the cases below. -/
noncomputable def sheet (A B C : Vec3) : Mesh := ⟨[A, B, C], [⟨0, 1, 2⟩], [], 0, 0⟩

theorem sheet_good (A B C : Vec3) : GoodMesh (sheet A B C) := by
  refine ⟨⟨[.addPoint A, .addPoint B, .addPoint C, .addTriangle 0 1 2], rfl⟩, ?_⟩
  intro t ht
  simp only [sheet, List.mem_singleton] at ht
  subst ht
  simp [sheet]

/-- The pose of the objects in the cases below. -/
def here : Transform3 := ⟨Mat3.identity, ⟨0, 0, 0⟩⟩

theorem here_apply (p : Vec3) : here.apply p = p := by
  ext <;> simp [here, Transform3.apply, Mat3.mulVec, Mat3.identity]

/-- The pixels of a mesh of one triangle in front of the camera. -/
theorem sheet_record (c : Camera) (w h : ℕ) {A B C : Vec3} (hA : A.z < nearClip) (hB : B.z < nearClip) (hC : C.z < nearClip)
    {cs : List PixelCall} (hd : triangle2D w h true (corner c A) (corner c B) (corner c C) 0 = .ok cs) :
    render recorder c w h (sheet A B C) here true [] = .ok cs := by
  rw [render_eq_loop _ _ _ _ (by rw [Rigid, here, Orthogonal, M_identity]; simp) (sheet_good A B C)]
  have hcl : clipped A B C = [(A, B, C)] := by simp [clipped, hA, hB, hC]
  simp only [sheet, List.map_cons, List.map_nil, here_apply, loop, vget, List.getElem?_cons_zero, List.getElem?_cons_succ, bind,
    Except.bind, hcl, triangles3D, hd, pure, Except.pure, List.append_nil, recorder_pixels, List.nil_append]
  rfl

/-- The pixels of a triangle parallel to the image with the corners (a, 0), (0, 3), (4, 2) of the image, a ≤ 0 less than a pixel,
in an image of one row: one pixel, of depth `z` if a = 0 and NaN otherwise. -/
theorem peak_record {a z : ℝ} (ha : a ≤ 0) (ha' : -1 < a) (hz : 1 / 10 < z) :
    render recorder unitCamera 10 1 (sheet ⟨a * z, 0, -z⟩ ⟨0, -(3 * z), -z⟩ ⟨4 * z, -(2 * z), -z⟩) here true [] =
      .ok [⟨0, 0, if a = 0 then .fin z else .nan, 0⟩] := by
  have hz0 : 0 < z := by linarith
  have k1 : corner unitCamera ⟨a * z, 0, -z⟩ = ⟨a, 0, 1 / z⟩ := by
    ext <;> simp [corner, unitCamera, Camera.project3Dto2D, hz0.ne']
  have k2 : corner unitCamera ⟨0, -(3 * z), -z⟩ = ⟨0, 3, 1 / z⟩ := by
    ext <;> simp [corner, unitCamera, Camera.project3Dto2D, hz0.ne']
  have k3 : corner unitCamera ⟨4 * z, -(2 * z), -z⟩ = ⟨4, 2, 1 / z⟩ := by
    ext <;> simp [corner, unitCamera, Camera.project3Dto2D, hz0.ne']
  refine sheet_record _ _ _ (by simp [nearClip]; linarith) (by simp [nearClip]; linarith) (by simp [nearClip]; linarith) ?_
  rw [k1, k2, k3]
  have t0 : trunc 0 = 0 := by have := trunc_int 0; simpa using this
  have t2 : trunc 2 = 2 := by have := trunc_int 2; simpa using this
  have t3 : trunc 3 = 3 := by have := trunc_int 3; simpa using this
  have t4 : trunc 4 = 4 := by have := trunc_int 4; simpa using this
  have ta : trunc a = 0 := by
    rcases ha.lt_or_eq with h | h
    · rw [trunc_eq_ceil h, Int.ceil_eq_iff]
      constructor <;> push_cast <;> linarith
    · rw [h, t0]
  have s1 : Small ⟨a, 0, 1 / z⟩ := small_of (by rw [abs_lt]; constructor <;> linarith) (by norm_num)
  have s2 : Small ⟨0, 3, 1 / z⟩ := small_of (by norm_num) (by norm_num [abs_lt])
  have s3 : Small ⟨4, 2, 1 / z⟩ := small_of (by norm_num [abs_lt]) (by norm_num [abs_lt])
  have hcull : ¬ (true = true ∧ culls ⟨a, 0, 1 / z⟩ ⟨0, 3, 1 / z⟩ ⟨4, 2, 1 / z⟩) := by
    unfold culls
    norm_num
    linarith
  have hsort : sort Vec3.y ⟨a, 0, 1 / z⟩ ⟨0, 3, 1 / z⟩ ⟨4, 2, 1 / z⟩ = (⟨a, 0, 1 / z⟩, ⟨4, 2, 1 / z⟩, ⟨0, 3, 1 / z⟩) := by
    unfold sort
    norm_num
  have c1 := small_cast s1
  have c2 := small_cast s2
  have c3 := small_cast s3
  simp only [t0, t2, t3, t4, ta] at c1 c2 c3
  unfold triangle2D
  rw [if_neg hcull]
  simp only [c1.1, c1.2, c2.2, c3.1, c3.2, bind, Except.bind, pure, Except.pure]
  rw [if_pos (by decide), if_neg (by decide), hsort]
  simp only [c1.2, c2.2, c3.2]
  have i1 : ∀ n : ℤ, -10 < n → n < 10 → intOp n = .ok n := fun n h1 h2 => by
    rw [intOp, if_pos (by omega)]
  rw [i1 (2 - 0) (by norm_num) (by norm_num), i1 (3 - 2) (by norm_num) (by norm_num),
    i1 (3 - 0) (by norm_num) (by norm_num)]
  simp only
  by_cases h : a = 0
  · subst h
    have hr := row_right (width := 10) (y := 0) (Fl.fin (1 / z)) (Fl.fin (1 / z)) 0 (le_refl (0 : ℝ)) c1.1 c1.1
    rw [part_one (by norm_num) (by norm_num) hr, part_none (by norm_num) (by norm_num)]
    simp [pixels, Fl.div, hz0.ne']
  · have hr := row_left (width := 10) (y := 0) (Fl.fin (1 / z)) (Fl.fin (1 / z)) 0 (lt_of_le_of_ne ha h) c1.1
    rw [part_one (by norm_num) (by norm_num) hr, part_none (by norm_num) (by norm_num)]
    simp [pixels, Fl.sub, Fl.neg, Fl.add, Fl.div, Fl.inf, Fl.mul, h]

/-- C107 case for clients: a client that counts pixels. -/
example : render (⟨fun n _ => .ok (n + 1), fun _ => false⟩ : Sink ℕ) unitCamera 10 1
    (sheet ⟨0 * 2, 0, -2⟩ ⟨0, -(3 * 2), -2⟩ ⟨4 * 2, -(2 * 2), -2⟩) here true 0 = .ok 1 :=
  C107_clients _ (fun _ => rfl) _ _ _ _ _ _ (peak_record le_rfl (by norm_num) (by norm_num)) _

/-- An object of the cases below. -/
noncomputable def peak (a z : ℝ) (pointer : ℕ) : SceneObject := ⟨sheet ⟨a * z, 0, -z⟩ ⟨0, -(3 * z), -z⟩ ⟨4 * z, -(2 * z), -z⟩, here, pointer⟩

theorem peak_near {a z : ℝ} (ha : a ≤ 0) (ha' : -1 < a) (hz : 0 < z) (hz' : z ≤ 2) (p : ℕ) : Near (peak a z p).mesh (peak a z p).pose 8 := by
  intro q hq
  change q ∈ [_, _, _] at hq
  change |(here.apply q).x| ≤ 8 ∧ |(here.apply q).y| ≤ 8
  rw [here_apply]
  simp only [List.mem_cons, List.not_mem_nil, or_false] at hq
  rcases hq with rfl | rfl | rfl <;> simp only [abs_le] <;> refine ⟨⟨?_, ?_⟩, ?_, ?_⟩ <;> nlinarith

/-- Drawing an object of the cases changes at most the corner pixel. -/
theorem peak_paint {r : DefaultResult} (hr : Canvas 10 1 r) {a z : ℝ} (ha : a ≤ 0) (ha' : -1 < a) (hz : 1 / 10 < z) {p : ℕ} (hp : p ≠ 0)
    {d : Fl} (hd : d = if a = 0 then .fin z else .nan) :
    ∃ r', rasterize unitCamera (peak a z p).mesh (peak a z p).pose r.image r.pointerMap (peak a z p).pointer r.triangleMap = .ok r' ∧
      Canvas 10 1 r' ∧ (((r.image.at' 0 0).isZero = true ∨ d.lt (r.image.at' 0 0) = true) →
        r'.image.at' 0 0 = d ∧ entry r'.pointerMap 0 0 = some p) ∧
      (¬ ((r.image.at' 0 0).isZero = true ∨ d.lt (r.image.at' 0 0) = true) →
        r'.image.at' 0 0 = r.image.at' 0 0 ∧ entry r'.pointerMap 0 0 = entry r.pointerMap 0 0) := by
  have hrec := peak_record ha ha' hz
  rw [← hd] at hrec
  have hr' := hr.pointer p
  obtain ⟨r', e1, e2, e3⟩ := DefaultResult.pixel_ok (r := { r with pointer := p }) (c := ⟨0, 0, d, 0⟩)
    (by rw [hr'.cols, hr'.rows]; norm_num [InImage]) hr'.fit
  obtain ⟨f1, -, f3⟩ := e3 0 0
  refine ⟨r', ?_, hr'.same e2, fun h => ?_, fun h => ?_⟩
  · unfold rasterize
    rw [hr.cols, hr.rows]
    change render DefaultResult.sink unitCamera 10 1 (sheet _ _ _) here true (.new _ p _ _) = _
    rw [hr.new, render_default (c := unitCamera) (T := here) hrec _ hr'.stop]
    change (DefaultResult.pixel _ _ >>= fun s => .ok s) = _
    rw [e1]
    rfl
  · have ht : DefaultResult.Takes { r with pointer := p } ⟨0, 0, d, 0⟩ := h
    have hat : At 0 0 (⟨0, 0, d, 0⟩ : PixelCall) := ⟨rfl, rfl⟩
    rw [if_pos ⟨ht, hat⟩] at f1
    rw [if_pos ⟨hp, ht, hat⟩] at f3
    exact ⟨f1, f3⟩
  · have ht : ¬ DefaultResult.Takes { r with pointer := p } ⟨0, 0, d, 0⟩ := h
    rw [if_neg (fun g => ht g.1)] at f1
    rw [if_neg (fun g => ht g.2.1)] at f3
    exact ⟨f1, f3⟩

/-- C107 case: two objects one behind the other, the farther one drawn first; the image shows the nearer one. -/
example : ∃ r, paintScene unitCamera [peak 0 2 7, peak 0 1 8] ⟨⟨10, 1, fun _ _ => .fin 0⟩, 0, [], [], false⟩ = .ok r ∧
    r.image.at' 0 0 ≠ .fin 0 := by
  have hp : ∀ o ∈ [peak 0 2 7, peak 0 1 8], ∃ z p, o = peak 0 z p ∧ 1 ≤ z ∧ z ≤ 2 ∧ p ≠ 0 := by
    intro o ho
    simp only [List.mem_cons, List.not_mem_nil, or_false] at ho
    rcases ho with rfl | rfl
    · exact ⟨2, 7, rfl, by norm_num⟩
    · exact ⟨1, 8, rfl, by norm_num⟩
  obtain ⟨r, h1, h2, h3⟩ := C107_scene_partial unitCamera (K := 8) (by unfold Moderate unitCamera; norm_num)
    ⟨10, 1, fun _ _ => .fin 0⟩ [peak 0 2 7, peak 0 1 8] (by simp) (x := 0) (y := 0) (by
      intro o ho
      obtain ⟨z, p, rfl, g1, g2, g3⟩ := hp o ho
      exact ⟨(sheet_good _ _ _).2, peak_near le_rfl (by norm_num) (by linarith) g2 p, g3⟩) (by norm_num) (by norm_num) (by
      intro o ho calls hcalls q hq _
      obtain ⟨z, p, rfl, g1, g2, g3⟩ := hp o ho
      have := peak_record (a := 0) (z := z) le_rfl (by norm_num) (by linarith)
      change render recorder unitCamera 10 1 (sheet _ _ _) here true [] = .ok calls at hcalls
      rw [this, Except.ok.injEq] at hcalls
      subst hcalls
      rw [List.mem_singleton.1 hq]
      exact ⟨z, by linarith, by simp⟩) rfl
  refine ⟨r, h1, fun hr => ?_⟩
  rcases h3 with ⟨g, -⟩ | ⟨-, -, -, -, v, -, -, g3, -, g5, -⟩
  · obtain ⟨s, e1, -, e3, -⟩ := peak_paint (canvas_new ⟨10, 1, fun _ _ => .fin 0⟩ one_ne_zero) (a := 0) (z := 1) le_rfl (by norm_num)
      (by norm_num) (p := 8) (by norm_num) rfl
    obtain ⟨s', hs⟩ := h2 (peak 0 1 8) (by simp)
    have g := g (peak 0 1 8) (by simp) s' hs
    have : alone unitCamera ⟨10, 1, fun _ _ => .fin 0⟩ (peak 0 1 8) = .ok s := by
      unfold alone
      rw [← e1]
      unfold rasterize
      rw [(canvas_new ⟨10, 1, fun _ _ => .fin 0⟩ one_ne_zero).new, new_pointer _ (by simp [peak]) one_ne_zero]
      rfl
    rw [hs, Except.ok.injEq] at this
    subst this
    rw [(e3 (.inl (by simp [DefaultResult.new, Fl.isZero]))).1] at g
    simp at g
  · rw [g5, Fl.fin.injEq] at hr
    linarith

/-- C107 fails for objects that draw NaN (see C63): of two objects, one left of the image by less than a pixel at depth 1 and one at depth
1/2, the image shows NaN at the corner pixel if the farther one is drawn first, and 1/2, as the nearer
one alone does, if it is drawn last. -/
theorem C107_nan_wrong : ∃ a b : SceneObject, GoodMesh a.mesh ∧ GoodMesh b.mesh ∧ a.pointer ≠ 0 ∧ b.pointer ≠ 0 ∧
    Near a.mesh a.pose 8 ∧ Near b.mesh b.pose 8 ∧ Moderate unitCamera 8 ∧
    (∃ s, alone unitCamera ⟨10, 1, fun _ _ => .fin 0⟩ b = .ok s ∧ s.image.at' 0 0 = .fin (1 / 2)) ∧
    (∃ r, paintScene unitCamera [a, b] ⟨⟨10, 1, fun _ _ => .fin 0⟩, 0, [], [], false⟩ = .ok r ∧ r.image.at' 0 0 = .nan ∧
      entry r.pointerMap 0 0 = some a.pointer) ∧
    ∃ r, paintScene unitCamera [b, a] ⟨⟨10, 1, fun _ _ => .fin 0⟩, 0, [], [], false⟩ = .ok r ∧ r.image.at' 0 0 = .fin (1 / 2) ∧
      entry r.pointerMap 0 0 = some b.pointer := by
  have hcan := canvas_new ⟨10, 1, fun _ _ => .fin 0⟩ one_ne_zero
  have hstart : ∀ o os, o.pointer ≠ 0 → paintScene unitCamera (o :: os) ⟨⟨10, 1, fun _ _ => .fin 0⟩, 0, [], [], false⟩ =
      paintScene unitCamera (o :: os) (.new ⟨10, 1, fun _ _ => .fin 0⟩ 1 [] []) := by
    intro o os ho
    simp only [paintScene, rasterize]
    rw [hcan.new, new_pointer _ ho one_ne_zero]
    rfl
  have dn : (Fl.nan) = if (-1 / 2 : ℝ) = 0 then .fin 1 else .nan := by norm_num
  have df : (Fl.fin (1 / 2)) = if (0 : ℝ) = 0 then .fin (1 / 2) else .nan := by simp
  refine ⟨peak (-1 / 2) 1 7, peak 0 (1 / 2) 8, sheet_good _ _ _, sheet_good _ _ _, by simp [peak], by simp [peak],
    peak_near (by norm_num) (by norm_num) (by norm_num) (by norm_num) 7, peak_near le_rfl (by norm_num) (by norm_num) (by norm_num) 8,
    by unfold Moderate unitCamera; norm_num, ?_, ?_, ?_⟩
  · obtain ⟨s, e1, -, e3, -⟩ := peak_paint hcan (a := 0) (z := 1 / 2) le_rfl (by norm_num) (by norm_num) (p := 8) (by norm_num) df
    refine ⟨s, ?_, (e3 (.inl (by simp [DefaultResult.new, Fl.isZero]))).1⟩
    unfold alone
    rw [← e1]
    unfold rasterize
    rw [hcan.new, new_pointer _ (by simp [peak]) one_ne_zero]
    rfl
  · rw [hstart _ _ (by simp [peak])]
    obtain ⟨r1, e1, c1, t1, -⟩ := peak_paint hcan (a := -1 / 2) (z := 1) (by norm_num) (by norm_num) (by norm_num) (p := 7) (by norm_num) dn
    obtain ⟨r2, e2, -, -, n2⟩ := peak_paint c1 (a := 0) (z := 1 / 2) le_rfl (by norm_num) (by norm_num) (p := 8) (by norm_num) df
    obtain ⟨a1, a2⟩ := t1 (.inl (by simp [DefaultResult.new, Fl.isZero]))
    obtain ⟨b1, b2⟩ := n2 (by rw [a1]; simp [Fl.isZero, Fl.lt])
    refine ⟨r2, ?_, b1.trans a1, b2.trans a2⟩
    simp only [paintScene, e1, e2, bind, Except.bind]
  · rw [hstart _ _ (by simp [peak])]
    obtain ⟨r1, e1, c1, t1, -⟩ := peak_paint hcan (a := 0) (z := 1 / 2) le_rfl (by norm_num) (by norm_num) (p := 8) (by norm_num) df
    obtain ⟨r2, e2, -, -, n2⟩ := peak_paint c1 (a := -1 / 2) (z := 1) (by norm_num) (by norm_num) (by norm_num) (p := 7) (by norm_num) dn
    obtain ⟨a1, a2⟩ := t1 (.inl (by simp [DefaultResult.new, Fl.isZero]))
    obtain ⟨b1, b2⟩ := n2 (by rw [a1]; simp [Fl.isZero, Fl.lt])
    refine ⟨r2, ?_, b1.trans a1, b2.trans a2⟩
    simp only [paintScene, e1, e2, bind, Except.bind]

end Geo
