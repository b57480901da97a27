import Verif.Lemmas.Again
import Verif.Props.Scene
import Verif.Props.Joint

/-!
# Property theorems C119: a scene is the set of its objects
-/

namespace Geo
open Spec Raster

/-- C119 for the laser: a scan depends on the objects drawn only, not on how often and in which order they are drawn. -/
theorem C119_scan {l : LRF} (h : Fine l) (xs ys : List (Mesh × Transform3)) (hmem : ∀ x, x ∈ xs ↔ x ∈ ys)
    (hv : ∀ x ∈ xs, Valid x.1.points x.1.tris) (ranges : List EReal) (hl : ranges.length = l.numBeams) :
    ∃ rs, scanAll l xs ranges = .ok rs ∧ scanAll l ys ranges = .ok rs := by
  obtain ⟨rs, e1, e2, e3⟩ := C102_scene h xs hv ranges hl
  obtain ⟨rs', f1, f2, f3⟩ := C102_scene h ys (fun x hx => hv x ((hmem x).2 hx)) ranges hl
  refine ⟨rs, e1, ?_⟩
  rw [f1]
  congr 1
  refine List.ext_getElem (f2.trans e2.symm) fun j h1 h2 => ?_
  have ho : ranges[j]? = some (ranges[j]'(by omega)) := List.getElem?_eq_getElem (by omega)
  have hs : SingleDepths l xs j = SingleDepths l ys j := by
    unfold SingleDepths
    ext d
    constructor
    · rintro ⟨q1, x, hx, q2⟩
      exact ⟨q1, x, (hmem x).1 hx, q2⟩
    · rintro ⟨q1, x, hx, q2⟩
      exact ⟨q1, x, (hmem x).2 hx, q2⟩
  have q1 := e3 j _ _ ho (List.getElem?_eq_getElem h2)
  have q2 := f3 j _ _ ho (List.getElem?_eq_getElem h1)
  rw [hs] at q1
  exact nearest_unique q2 q1

/-- A case of C119 for the laser: a plate drawn before and after another one. -/
example : ∃ l, Fine l ∧ ∃ rs,
    scanAll l [(plate, ⟨Mat3.identity, ⟨3, 0, 0⟩⟩), (plate, ⟨Mat3.identity, ⟨2, 0, 0⟩⟩), (plate, ⟨Mat3.identity, ⟨3, 0, 0⟩⟩)] [0, 1, 0] =
      .ok rs ∧
    scanAll l [(plate, ⟨Mat3.identity, ⟨2, 0, 0⟩⟩), (plate, ⟨Mat3.identity, ⟨3, 0, 0⟩⟩)] [0, 1, 0] = .ok rs := by
  obtain ⟨l, _, _, _, h4, _, h6, _⟩ := half_sensor 4
  refine ⟨l, h6, C119_scan h6 _ _ (fun x => ?_) (fun x hx => ?_) [0, 1, 0] (by simp [h4])⟩
  · simp only [List.mem_cons, List.not_mem_nil, or_false]
    tauto
  · simp only [List.mem_cons, List.not_mem_nil, or_false] at hx
    rcases hx with rfl | rfl | rfl <;> exact plate_good.2

/-- C119 for the depth camera: drawing an object once more changes nothing at pixels that were empty before the object was drawn
first, whatever depths it draws there. -/
theorem C119_again {c : Camera} {K : ℝ} (hc : Moderate c K) {m : Mesh} {T : Transform3} (hv : Valid m.points m.tris)
    (hn : Near m T K) (image : DepthImage) (pointer : ℕ) (pm : List (List ℕ)) (tm : List (List ℤ))
    (hp : ∀ col ∈ pm, image.rows ≤ col.length) (ht : ∀ col ∈ tm, image.rows ≤ col.length) :
    ∃ r r', rasterize c m T image pm pointer tm = .ok r ∧
      rasterize c m T r.image r.pointerMap pointer r.triangleMap = .ok r' ∧
      ∀ x y, (image.at' y x).isZero = true → r'.image.at' y x = r.image.at' y x ∧
        entry r'.triangleMap x y = entry r.triangleMap x y ∧ entry r'.pointerMap x y = entry r.pointerMap x y := by
  obtain ⟨calls, e1, e2⟩ := recorder_ok c image.cols image.rows true hc hv hn
  have hf := DefaultResult.new_fit (pointer := pointer) hp ht
  obtain ⟨r, f1, f2, f3⟩ := Again.pixels_cell calls (.new image pointer pm tm) hf e2
  obtain ⟨r', g1, g2, g3⟩ := Again.pixels_cell calls r (f2.fit hf) (by rw [f2.cols, f2.rows]; exact e2)
  have hs := settled_new image pointer pm tm
  have h1 : r.pointerMap.length = (DefaultResult.new image pointer pm tm).pointerMap.length := by
    simpa using congrArg List.length f2.ptr
  have h2 : r.triangleMap.length = (DefaultResult.new image pointer pm tm).triangleMap.length := by
    simpa using congrArg List.length f2.tri
  have hs' : Settled r := ⟨f2.stop.trans hs.stop, fun h => by
      rw [h1, f2.cols]; exact hs.pm (by rw [← f2.pointer]; exact h), by rw [h2, f2.cols]; exact hs.tm⟩
  have hptr : r.pointer = pointer := f2.pointer
  refine ⟨r, r', ?_, ?_, fun x y hz => ?_⟩
  · unfold rasterize
    rw [render_default e1 _ rfl, f1]
  · unfold rasterize
    have hnew := settled_eq hs'
    rw [hptr] at hnew
    rw [hnew, f2.cols, f2.rows]
    change render DefaultResult.sink c image.cols image.rows m T true r = _
    rw [render_default e1 _ hs'.stop, g1]
  · obtain ⟨a1, a2⟩ := f3 x y (entry (DefaultResult.new image pointer pm tm).pointerMap x y) (fun _ => rfl)
    obtain ⟨b1, -⟩ := g3 x y (entry (DefaultResult.new image pointer pm tm).pointerMap x y) (fun h => a2 (by rw [← f2.pointer]; exact h))
    rw [f2.pointer, a1, Again.again _ _ hz, ← a1] at b1
    unfold Again.cell at b1
    simp only [Prod.mk.injEq] at b1
    exact b1

/-- A case of C119: an object that draws NaN at a pixel (see C63), drawn twice. -/
example : ∃ r r', rasterize unitCamera (peak (-1 / 2) 1 7).mesh here ⟨10, 1, fun _ _ => .fin 0⟩ [] 7 [] = .ok r ∧
    rasterize unitCamera (peak (-1 / 2) 1 7).mesh here r.image r.pointerMap 7 r.triangleMap = .ok r' ∧
    r.image.at' 0 0 = .nan ∧ r'.image.at' = r.image.at' := by
  obtain ⟨r, r', h1, h2, h3⟩ := C119_again (c := unitCamera) (K := 8) (m := (peak (-1 / 2) 1 7).mesh) (T := here)
    (by unfold Moderate unitCamera; norm_num) (sheet_good _ _ _).2 (peak_near (by norm_num) (by norm_num) (by norm_num) (by norm_num) 7)
    ⟨10, 1, fun _ _ => .fin 0⟩ 7 [] [] (by simp) (by simp)
  have hcan := canvas_new ⟨10, 1, fun _ _ => .fin 0⟩ one_ne_zero
  obtain ⟨s, e1, -, e3, -⟩ := peak_paint hcan (a := -1 / 2) (z := 1) (by norm_num) (by norm_num) (by norm_num) (p := 7) (by norm_num)
    (show Fl.nan = _ by norm_num)
  have hs : rasterize unitCamera (peak (-1 / 2) 1 7).mesh here ⟨10, 1, fun _ _ => .fin 0⟩ [] 7 [] = .ok s := by
    rw [← e1]
    unfold rasterize
    rw [hcan.new, new_pointer _ (by norm_num) one_ne_zero]
    rfl
  rw [hs, Except.ok.injEq] at h1
  subst h1
  exact ⟨s, r', hs, h2, (e3 (.inl (by simp [DefaultResult.new, Fl.isZero]))).1,
    funext fun y => funext fun x => (h3 x y (by simp [Fl.isZero])).1⟩

/-- C119 for the depth camera, in part: where all objects draw finite positive depths only and the image is empty at first, the depth
depends on the objects drawn only, not on how often and in which order they are drawn. Missing: objects that draw other depths, for which
it is false (`C119_image_wrong`). -/
theorem C119_image_partial (c : Camera) {K : ℝ} (hc : Moderate c K) (image : DepthImage) {xs xs' : List SceneObject}
    (hmem : ∀ o, o ∈ xs ↔ o ∈ xs') (hv : ∀ o ∈ xs, Valid o.mesh.points o.mesh.tris ∧ Near o.mesh o.pose K ∧ o.pointer ≠ 0) {x y : ℕ}
    (hx : x < image.cols) (hy : y < image.rows) (hclean : ∀ o ∈ xs, CleanAt c image.cols image.rows o x y)
    (hi : image.at' y x = .fin 0) :
    ∃ r r', paintScene c xs ⟨image, 0, [], [], false⟩ = .ok r ∧ paintScene c xs' ⟨image, 0, [], [], false⟩ = .ok r' ∧
      r.image.at' y x = r'.image.at' y x := by
  by_cases hne : xs = []
  · subst hne
    obtain rfl : xs' = [] := List.eq_nil_iff_forall_not_mem.2 fun o ho => by simpa using (hmem o).2 ho
    exact ⟨_, _, rfl, rfl, rfl⟩
  have hne' : xs' ≠ [] := by
    rintro rfl
    exact hne (List.eq_nil_iff_forall_not_mem.2 fun o ho => by simpa using (hmem o).1 ho)
  obtain ⟨r, e1, e2, e3⟩ := C107_scene_partial c hc image xs hne hv hx hy hclean hi
  obtain ⟨r', f1, f2, f3⟩ := C107_scene_partial c hc image xs' hne' (fun o ho => hv o ((hmem o).2 ho)) hx hy
    (fun o ho => hclean o ((hmem o).2 ho)) hi
  refine ⟨r, r', e1, f1, ?_⟩
  have all : ∀ {l pre post : List SceneObject} {o : SceneObject} {s : DefaultResult} {v : ℝ}, l = pre ++ o :: post →
      alone c image o = .ok s → s.image.at' y x = .fin v →
      (∀ o' ∈ pre, ∀ s, alone c image o' = .ok s → s.image.at' y x = .fin 0 ∨ ∃ v', s.image.at' y x = .fin v' ∧ v < v') →
      (∀ o' ∈ post, ∀ s, alone c image o' = .ok s → s.image.at' y x = .fin 0 ∨ ∃ v', s.image.at' y x = .fin v' ∧ v ≤ v') →
      ∀ o' ∈ l, ∀ s, alone c image o' = .ok s → s.image.at' y x = .fin 0 ∨ ∃ v', s.image.at' y x = .fin v' ∧ v ≤ v' := by
    intro l pre post o s v hl hs hsv h1 h2 o' ho' s' hs'
    subst hl
    rcases List.mem_append.1 ho' with ho' | ho'
    · exact (h1 o' ho' s' hs').imp id fun ⟨v', g1, g2⟩ => ⟨v', g1, g2.le⟩
    · rcases List.mem_cons.1 ho' with rfl | ho'
      · rw [hs, Except.ok.injEq] at hs'
        subst hs'
        exact .inr ⟨v, hsv, le_rfl⟩
      · exact h2 o' ho' s' hs'
  rcases e3 with ⟨a1, a2, -⟩ | ⟨pre, o, post, s, v, b1, b2, b3, b4, b5, -, -, b6, b7⟩
  · rcases f3 with ⟨-, a3, -⟩ | ⟨pre, o, post, s, v, b1, b2, b3, b4, -⟩
    · rw [a2, a3]
    · have := a1 o ((hmem _).2 (by rw [b1]; simp)) s b2
      rw [b4, Fl.fin.injEq] at this
      exact absurd this b3.ne'
  · have m1 : o ∈ xs' := (hmem _).1 (by rw [b1]; simp)
    rcases f3 with ⟨a3, -⟩ | ⟨pre', o', post', s', v', c1, c2, c3, c4, c5, -, -, c6, c7⟩
    · have := a3 o m1 s b2
      rw [b4, Fl.fin.injEq] at this
      exact absurd this b3.ne'
    · have m2 : o' ∈ xs := (hmem _).2 (by rw [c1]; simp)
      have k1 : v ≤ v' := by
        rcases all b1 b2 b4 b6 b7 o' m2 s' c2 with g | ⟨u, g1, g2⟩
        · rw [c4, Fl.fin.injEq] at g; exact absurd g c3.ne'
        · rw [c4, Fl.fin.injEq] at g1; linarith
      have k2 : v' ≤ v := by
        rcases all c1 c2 c4 c6 c7 o m1 s b2 with g | ⟨u, g1, g2⟩
        · rw [b4, Fl.fin.injEq] at g; exact absurd g b3.ne'
        · rw [b4, Fl.fin.injEq] at g1; linarith
      rw [b5, c5, le_antisymm k1 k2]

/-- A case of C119 for the depth camera: one object drawn before and after another one. -/
example : ∃ r r', paintScene unitCamera [peak 0 2 7, peak 0 1 8, peak 0 2 7] ⟨⟨10, 1, fun _ _ => .fin 0⟩, 0, [], [], false⟩ = .ok r ∧
    paintScene unitCamera [peak 0 1 8, peak 0 2 7] ⟨⟨10, 1, fun _ _ => .fin 0⟩, 0, [], [], false⟩ = .ok r' ∧
    r.image.at' 0 0 = r'.image.at' 0 0 := by
  have hp : ∀ o ∈ [peak 0 2 7, peak 0 1 8, peak 0 2 7], ∃ z p, o = peak 0 z p ∧ 1 ≤ z ∧ z ≤ 2 ∧ p ≠ 0 := by
    intro o ho
    simp only [List.mem_cons, List.not_mem_nil, or_false] at ho
    rcases ho with rfl | rfl | rfl
    · exact ⟨2, 7, rfl, by norm_num⟩
    · exact ⟨1, 8, rfl, by norm_num⟩
    · exact ⟨2, 7, rfl, by norm_num⟩
  refine C119_image_partial unitCamera (K := 8) (by unfold Moderate unitCamera; norm_num) ⟨10, 1, fun _ _ => .fin 0⟩ (fun o => ?_)
    (fun o ho => ?_) (x := 0) (y := 0) (by norm_num) (by norm_num) (fun o ho calls hcalls q hq _ => ?_) rfl
  · simp only [List.mem_cons, List.not_mem_nil, or_false]
    tauto
  · obtain ⟨z, p, rfl, g1, g2, g3⟩ := hp o ho
    exact ⟨(sheet_good _ _ _).2, peak_near le_rfl (by norm_num) (by linarith) g2 p, g3⟩
  · obtain ⟨z, p, rfl, g1, g2, g3⟩ := hp o ho
    have := peak_record (a := 0) (z := z) le_rfl (by norm_num) (by linarith)
    change render recorder unitCamera 10 1 (sheet _ _ _) here true [] = .ok calls at hcalls
    rw [this, Except.ok.injEq] at hcalls
    subst hcalls
    rw [List.mem_singleton.1 hq]
    exact ⟨z, by linarith, by simp⟩

/-- C119 fails for objects that draw NaN: two lists of the same objects, drawn into an empty image, give different depths at a pixel. -/
theorem C119_image_wrong : ∃ xs xs' : List SceneObject, (∀ o, o ∈ xs ↔ o ∈ xs') ∧
    (∀ o ∈ xs, GoodMesh o.mesh ∧ Near o.mesh o.pose 8 ∧ o.pointer ≠ 0) ∧ Moderate unitCamera 8 ∧
    ∃ r r', paintScene unitCamera xs ⟨⟨10, 1, fun _ _ => .fin 0⟩, 0, [], [], false⟩ = .ok r ∧
      paintScene unitCamera xs' ⟨⟨10, 1, fun _ _ => .fin 0⟩, 0, [], [], false⟩ = .ok r' ∧ r.image.at' 0 0 ≠ r'.image.at' 0 0 := by
  obtain ⟨a, b, h1, h2, h3, h4, h5, h6, h7, -, ⟨r, e1, e2, -⟩, r', f1, f2, -⟩ := C107_nan_wrong
  refine ⟨[a, b], [b, a], fun o => ?_, fun o ho => ?_, h7, r, r', e1, f1, ?_⟩
  · simp only [List.mem_cons, List.not_mem_nil, or_false]
    tauto
  · simp only [List.mem_cons, List.not_mem_nil, or_false] at ho
    rcases ho with rfl | rfl
    · exact ⟨h1, h5, h3⟩
    · exact ⟨h2, h6, h4⟩
  · rw [e2, f2]
    simp

end Geo
