import Verif.Lemmas.TestPictures
import Verif.Lemmas.LaserRangeFinderUse
import Verif.Props.LaserRangeFinder

/-!
# What the program test_geolib draws and builds (C124)
-/

namespace Geo

open Spec TestPrograms

/-! ## C124 -/

/-- C124, the loop of `main`: whatever the points are, drawing them stays in the picture, and afterwards a pixel is 1 if it shows one
of the points and has its old value otherwise. -/
theorem C124_points (points : List Vec3) (image : Mat32F) (hr : image.rows < 2 ^ 31) (hc : image.cols < 2 ^ 31) :
    ∃ im, drawPoints points image = .ok im ∧ im.rows = image.rows ∧ im.cols = image.cols ∧
      ∀ i j, i < image.rows → j < image.cols →
        ((∃ p ∈ points, ShowsPoint image.rows image.cols p i j) → im.data i j = 1) ∧
        (¬ (∃ p ∈ points, ShowsPoint image.rows image.cols p i j) → im.data i j = image.data i j) := by
  unfold drawPoints
  refine draw_loop _ (ShowsPoint image.rows image.cols) image.rows image.cols points (fun p _ im h1 h2 => ?_) image rfl rfl
  dsimp only
  rw [h1, h2]
  split_ifs with h
  · obtain ⟨im', e1, e2, e3, e4⟩ := mark_ok (im := im) (by omega) (by omega) h.2.1 (by rw [h1]; exact h.2.2.2) h.1
      (by rw [h2]; exact h.2.2.1)
    refine ⟨im', e1, e2.trans h1, e3.trans h2, fun i j _ _ => ?_⟩
    have : ShowsPoint image.rows image.cols p i j ↔ ((i : ℝ) ≤ -p.x * 25 + (image.rows / 2 : ℕ) ∧
        -p.x * 25 + (image.rows / 2 : ℕ) < i + 1 ∧ (j : ℝ) ≤ -p.y * 25 + (image.cols / 2 : ℕ) ∧
        -p.y * 25 + (image.cols / 2 : ℕ) < j + 1) := by
      unfold ShowsPoint
      constructor <;> rintro ⟨a, b, c, d⟩ <;> refine ⟨?_, ?_, ?_, ?_⟩ <;> linarith
    rw [this]
    exact e4 i j
  · refine ⟨im, rfl, h1, h2, fun i j hi hj => ⟨fun hs => absurd ?_ h, fun _ => rfl⟩⟩
    obtain ⟨a, b, c, d⟩ := hs
    have hi' : (i : ℝ) + 1 ≤ image.rows := by exact_mod_cast hi
    have hj' : (j : ℝ) + 1 ≤ image.cols := by exact_mod_cast hj
    have i0 : (0 : ℝ) ≤ i := Nat.cast_nonneg i
    have j0 : (0 : ℝ) ≤ j := Nat.cast_nonneg j
    refine ⟨?_, ?_, ?_, ?_⟩ <;> linarith

/-- A case of C124: a point 2 m ahead and 1 m to the left is shown at row 190, column 295 of the picture, and one 20 m ahead is not
shown, but does no harm. -/
example : ∃ im, drawPoints [⟨2, 1, 0⟩, ⟨20, 0, 0⟩] ⟨480, 640, fun _ _ => 0⟩ = .ok im ∧ im.data 190 295 = 1 ∧ im.data 0 320 = 0 := by
  obtain ⟨im, e1, _, _, e4⟩ := C124_points [⟨2, 1, 0⟩, ⟨20, 0, 0⟩] ⟨480, 640, fun _ _ => 0⟩ (by norm_num) (by norm_num)
  refine ⟨im, e1, (e4 190 295 (by norm_num) (by norm_num)).1 ⟨⟨2, 1, 0⟩, by simp, by norm_num [ShowsPoint]⟩,
    (e4 0 320 (by norm_num) (by norm_num)).2 ?_⟩
  simp only [List.mem_cons, List.not_mem_nil, or_false, exists_eq_or_imp, exists_eq_left]
  norm_num [ShowsPoint]

/-- C124, the loop of `renderLRF`, if no range reaches the border of the picture: drawing stays in the picture, and a pixel is 1
afterwards if a beam ends in it. What is missing: longer ranges, see `C124_show_wrong`. -/
theorem C124_show_partial (angles ranges : List ℝ) (hlen : angles.length ≤ ranges.length) (image : Mat32F)
    (hr : image.rows < 2 ^ 31) (hc : image.cols < 2 ^ 31)
    (hs : ∀ r ∈ ranges, 25 * |r| < (image.rows / 2 : ℕ) ∧ 25 * |r| < (image.cols / 2 : ℕ)) :
    ∃ im, showRanges angles ranges image = .ok im ∧ im.rows = image.rows ∧ im.cols = image.cols ∧
      ∀ i j, i < image.rows → j < image.cols →
        ((∃ (k : ℕ) (a r : ℝ), angles[k]? = some a ∧ ranges[k]? = some r ∧ ShowsEnd image.rows image.cols a r i j) →
          im.data i j = 1) ∧
        (¬ (∃ (k : ℕ) (a r : ℝ), angles[k]? = some a ∧ ranges[k]? = some r ∧ ShowsEnd image.rows image.cols a r i j) →
          im.data i j = image.data i j) := by
  have step : ∀ k ∈ List.range angles.length, ∀ im : Mat32F, im.rows = image.rows → im.cols = image.cols →
      ∃ im', (do
        let p := LRF.polarTo2D (← vget angles k) (← vget ranges k)
        mark im (p.y * 25 + (im.rows / 2 : ℕ)) (p.x * 25 + (im.cols / 2 : ℕ))) = .ok im' ∧
        im'.rows = image.rows ∧ im'.cols = image.cols ∧ ∀ i j, i < image.rows → j < image.cols →
          ((∃ a r : ℝ, angles[k]? = some a ∧ ranges[k]? = some r ∧ ShowsEnd image.rows image.cols a r i j) → im'.data i j = 1) ∧
          (¬ (∃ a r : ℝ, angles[k]? = some a ∧ ranges[k]? = some r ∧ ShowsEnd image.rows image.cols a r i j) →
            im'.data i j = im.data i j) := by
    intro k hk im h1 h2
    rw [List.mem_range] at hk
    have ha : angles[k]? = some angles[k] := List.getElem?_eq_getElem hk
    have hr' : ranges[k]? = some ranges[k] := List.getElem?_eq_getElem (by omega)
    have hb := hs _ (List.getElem_mem (by omega : k < ranges.length))
    generalize angles[k] = a at ha
    generalize ranges[k] = r at hr' hb
    have hsin := mul_le_of_le_one_right (abs_nonneg r) (Real.abs_sin_le_one a)
    have hcos := mul_le_of_le_one_right (abs_nonneg r) (Real.abs_cos_le_one a)
    rw [← abs_mul] at hsin hcos
    have hsin' := abs_le.1 hsin
    have hcos' := abs_le.1 hcos
    have half : ∀ n : ℕ, 2 * ((n / 2 : ℕ) : ℝ) ≤ n := fun n => by exact_mod_cast (by omega : 2 * (n / 2) ≤ n)
    have hR := half image.rows
    have hC := half image.cols
    simp only [vget, ha, hr', bind, Except.bind, h1, h2, LRF.polarTo2D, Vec3.mul_x, Vec3.mul_y]
    obtain ⟨im', e1, e2, e3, e4⟩ := mark_ok (im := im) (y := Real.sin a * r * 25 + (image.rows / 2 : ℕ))
      (x := Real.cos a * r * 25 + (image.cols / 2 : ℕ)) (by omega) (by omega) (by linarith) (by rw [h1]; linarith) (by linarith)
      (by rw [h2]; linarith)
    refine ⟨im', e1, e2.trans h1, e3.trans h2, fun i j _ _ => ?_⟩
    have : (∃ a' r' : ℝ, some a = some a' ∧ some r = some r' ∧ ShowsEnd image.rows image.cols a' r' i j) ↔
        ((i : ℝ) ≤ Real.sin a * r * 25 + (image.rows / 2 : ℕ) ∧ Real.sin a * r * 25 + (image.rows / 2 : ℕ) < i + 1 ∧
        (j : ℝ) ≤ Real.cos a * r * 25 + (image.cols / 2 : ℕ) ∧ Real.cos a * r * 25 + (image.cols / 2 : ℕ) < j + 1) := by
      unfold ShowsEnd
      constructor
      · rintro ⟨a', r', ea, er, q1, q2, q3, q4⟩
        cases ea
        cases er
        refine ⟨?_, ?_, ?_, ?_⟩ <;> linarith
      · rintro ⟨q1, q2, q3, q4⟩
        refine ⟨a, r, rfl, rfl, ?_, ?_, ?_, ?_⟩ <;> linarith
    rw [this]
    exact e4 i j
  obtain ⟨im, e1, e2, e3, e4⟩ := draw_loop _ _ _ _ _ step image rfl rfl
  refine ⟨im, e1, e2, e3, fun i j hi hj => ⟨fun ⟨k, a, r, h⟩ => (e4 i j hi hj).1 ⟨k, ?_, a, r, h⟩, fun h => (e4 i j hi hj).2 ?_⟩⟩
  · rw [List.mem_range]
    exact (List.getElem?_eq_some_iff.1 h.1).1
  · rintro ⟨k, -, a, r, h'⟩
    exact h ⟨k, a, r, h'⟩

/-- A case of C124: the end of a beam straight ahead with the range 4 is shown at row 240, column 420. -/
example : ∃ im, showRanges [0, 1] [4, 0] ⟨480, 640, fun _ _ => 0⟩ = .ok im ∧ im.data 240 420 = 1 := by
  obtain ⟨im, e1, _, _, e4⟩ := C124_show_partial [0, 1] [4, 0] (by simp) ⟨480, 640, fun _ _ => 0⟩ (by norm_num) (by norm_num)
    (by simp only [List.mem_cons, List.not_mem_nil, or_false, forall_eq_or_imp, forall_eq]; norm_num)
  exact ⟨im, e1, (e4 240 420 (by norm_num) (by norm_num)).1 ⟨0, 0, 4, rfl, rfl, by norm_num [ShowsEnd]⟩⟩

/-- C124 is false for the loop of `renderLRF`: with the sensor and the picture of the code, and ranges within the maximum range of the
sensor, it writes outside the picture. (The code never calls the function with `show` set.) -/
theorem C124_show_wrong : ∃ l, LRF.new.run [.rangeLimits 0 10, .angleLimits (-2) 2, .numBeams 1000] = .ok l ∧
    l.angles.length = 1000 ∧
    showRanges l.angles (List.replicate 1000 l.rangeMax) ⟨480, 640, fun _ _ => 0⟩ = .error .ub := by
  have p1 := Real.pi_gt_d2
  have p2 := Real.pi_lt_d2
  obtain ⟨l, h1, h2, h3, h4, h5, hF⟩ := exists_sensor (a := -2) (b := 2) (R := 10) (n := 1000) (by norm_num) (by norm_num) (by linarith)
    (by linarith) (by norm_num; linarith)
  have ht := (LRF.ready_inv hF.ready).1
  have hl : l.angles.length = 1000 := ht.1.trans h4
  refine ⟨l, h1, hl, ?_⟩
  unfold showRanges
  refine fail_loop _ 480 640 _ (fun k hk im i1 i2 => ?_) (a := 891) (by rw [hl]; simp) (fun im i1 i2 => ?_) _ rfl rfl
  · rw [List.mem_range, hl] at hk
    have := (ht.2.2 k (by omega)).1
    simp only [vget, this, bind, Except.bind, List.getElem?_replicate, hk, if_true]
    rcases mark_any im _ _ with h | ⟨im', q1, q2, q3⟩
    · exact .inl h
    · exact .inr ⟨im', q1, q2.trans i1, q3.trans i2⟩
  · have := (ht.2.2 891 (by omega)).1
    simp only [vget, this, bind, Except.bind, List.getElem?_replicate, show 891 < 1000 by norm_num, if_true]
    apply mark_row
    rw [i1, h5, LRF.beamAngle_eq]
    have hsp : spacing l = 4 / 999 := by unfold spacing; rw [h2, h3, h4]; norm_num
    rw [hsp, h2]
    simp only [LRF.polarTo2D, Vec3.mul_y]
    have hc := Real.one_sub_sq_div_two_le_cos (x := Real.pi / 2 - (-2 + ((891 : ℕ) : ℝ) * (4 / 999)))
    rw [Real.cos_pi_div_two_sub] at hc
    have hd : (Real.pi / 2 - (-2 + ((891 : ℕ) : ℝ) * (4 / 999))) ^ 2 ≤ 1 / 100 := by
      have : |Real.pi / 2 - (-2 + ((891 : ℕ) : ℝ) * (4 / 999))| ≤ 1 / 10 := by
        push_cast
        rw [abs_le]
        constructor <;> linarith
      calc _ = |Real.pi / 2 - (-2 + ((891 : ℕ) : ℝ) * (4 / 999))| ^ 2 := (sq_abs _).symm
        _ ≤ (1 / 10) ^ 2 := pow_le_pow_left₀ (abs_nonneg _) this 2
        _ = 1 / 100 := by norm_num
    push_cast
    push_cast at hc hd
    norm_num at hc hd ⊢
    linarith

/-- C124, the grid: the program builds a pyramid; a cell that is `k` cells away from the nearest side has the height `0.1 k`. -/
theorem C124_pyramid (n : ℕ) : ∃ g, pyramid n = .ok g ∧ g.length = n ∧ ∀ a < n, ∃ row, g[a]? = some row ∧ row.length = n ∧
    ∀ b < n, (ring n a b < n / 2 → row[b]? = some (1 / 10 * (ring n a b : ℝ))) ∧ (¬ ring n a b < n / 2 → row[b]? = some 0) := by
  obtain ⟨g, e1, e2, e3⟩ := pyramid_passes (n := n) (n / 2) le_rfl
  refine ⟨g, e1, e2, fun a ha => ?_⟩
  obtain ⟨row, r1, r2, r3⟩ := e3 a ha
  refine ⟨row, r1, r2, fun b hb => ⟨fun h => ?_, fun h => ?_⟩⟩
  · rw [r3 b hb]
    simp only [if_pos h]
    norm_num
  · rw [r3 b hb]
    simp only [if_neg h]

/-- With an even size, as in the code, every cell belongs to a ring that is set. -/
theorem C124_pyramid_even (n : ℕ) (h : Even n) : ∃ g, pyramid n = .ok g ∧ ∀ a < n, ∀ b < n, ∃ row, g[a]? = some row ∧
    row[b]? = some (1 / 10 * (ring n a b : ℝ)) := by
  obtain ⟨g, e1, -, e3⟩ := C124_pyramid n
  refine ⟨g, e1, fun a ha b hb => ?_⟩
  obtain ⟨row, r1, -, r3⟩ := e3 a ha
  refine ⟨row, r1, (r3 b hb).1 ?_⟩
  obtain ⟨m, rfl⟩ := h
  unfold ring
  omega

/-- A case of C124: the grid of the code; the middle is 0.9 high, the cell (3, 12) is 0.3 high. -/
example : ∃ g r9 r3, pyramid 20 = .ok g ∧ g[9]? = some r9 ∧ r9[10]? = some (9 / 10 : ℝ) ∧ g[3]? = some r3 ∧
    r3[12]? = some (3 / 10 : ℝ) := by
  obtain ⟨g, e1, e2⟩ := C124_pyramid_even 20 ⟨10, rfl⟩
  obtain ⟨r9, a1, a2⟩ := e2 9 (by norm_num) 10 (by norm_num)
  obtain ⟨r3, b1, b2⟩ := e2 3 (by norm_num) 12 (by norm_num)
  refine ⟨g, r9, r3, e1, a1, by rw [a2]; norm_num [ring], b1, by rw [b2]; norm_num [ring]⟩

end Geo
