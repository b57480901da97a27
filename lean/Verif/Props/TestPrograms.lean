import Verif.Lemmas.TestPrograms
import Verif.Props.Scan

/-!
# The picture of the program test_geolib_lrf (C123)
-/

namespace Geo

open Spec TestPrograms

/-! ## C123 -/

/-- C123, the parameters: without arguments the defaults are used; an argument that asks for help gives the usage message, and
nothing else does; six or more arguments set all parameters, four or five those of the pose, fewer only the number of beams. -/
theorem C123_options (atoi : List Char → ℤ) (atof : List Char → ℝ) (name : List Char) (args : List (List Char)) :
    scanOptions atoi atof [name] = .ok (some ⟨7, 2, 1 / 2, Real.pi / 2, 1, 2⟩) ∧
    (scanOptions atoi atof (name :: args) = .ok none ↔ "--help".toList ∈ args ∨ "-h".toList ∈ args) ∧
    (¬ ("--help".toList ∈ args ∨ "-h".toList ∈ args) → ∀ n rest, args = n :: rest →
      (rest.length < 3 → scanOptions atoi atof (name :: args) =
        .ok (some ⟨(atoi n % 2 ^ 32).toNat, 2, 1 / 2, Real.pi / 2, 1, 2⟩)) ∧
      (∀ x y yaw more, rest = x :: y :: yaw :: more → more.length < 2 → scanOptions atoi atof (name :: args) =
        .ok (some ⟨(atoi n % 2 ^ 32).toNat, atof x, atof y, atof yaw, 1, 2⟩)) ∧
      (∀ x y yaw w d more, rest = x :: y :: yaw :: w :: d :: more → scanOptions atoi atof (name :: args) =
        .ok (some ⟨(atoi n % 2 ^ 32).toNat, atof x, atof y, atof yaw, atof w, atof d⟩))) := by
  have hany : (((name :: args).drop 1).any (fun a => a = "--help".toList || a = "-h".toList) = true) ↔
      "--help".toList ∈ args ∨ "-h".toList ∈ args := by
    simp only [List.drop_succ_cons, List.drop_zero, List.any_eq_true, Bool.or_eq_true, decide_eq_true_eq]
    constructor
    · rintro ⟨a, ha, rfl | rfl⟩
      · exact .inl ha
      · exact .inr ha
    · rintro (h | h)
      · exact ⟨_, h, .inl rfl⟩
      · exact ⟨_, h, .inr rfl⟩
  have h12 : (0.5 : ℝ) = 1 / 2 := by norm_num
  have main : ¬ ("--help".toList ∈ args ∨ "-h".toList ∈ args) → ∀ n rest, args = n :: rest →
      (rest.length < 3 → scanOptions atoi atof (name :: args) =
        .ok (some ⟨(atoi n % 2 ^ 32).toNat, 2, 1 / 2, Real.pi / 2, 1, 2⟩)) ∧
      (∀ x y yaw more, rest = x :: y :: yaw :: more → more.length < 2 → scanOptions atoi atof (name :: args) =
        .ok (some ⟨(atoi n % 2 ^ 32).toNat, atof x, atof y, atof yaw, 1, 2⟩)) ∧
      (∀ x y yaw w d more, rest = x :: y :: yaw :: w :: d :: more → scanOptions atoi atof (name :: args) =
        .ok (some ⟨(atoi n % 2 ^ 32).toNat, atof x, atof y, atof yaw, atof w, atof d⟩)) := by
    refine fun hh n rest e => ⟨fun hr => ?_, fun x y yaw more e' hm => ?_, fun x y yaw w d more e' => ?_⟩
    · subst e
      unfold scanOptions
      dsimp only
      rw [if_pos (by simp), if_neg (mt hany.1 hh)]
      simp only [List.length_cons, bind, Except.bind, pure, Except.pure, vget, List.getElem?_cons_succ, List.getElem?_cons_zero]
      rw [if_neg (by omega), if_neg (by omega), if_neg (by omega), if_neg (by omega), if_neg (by omega), h12]
    · subst e; subst e'
      unfold scanOptions
      dsimp only
      rw [if_pos (by simp), if_neg (mt hany.1 hh)]
      simp only [List.length_cons, bind, Except.bind, pure, Except.pure, vget, List.getElem?_cons_succ, List.getElem?_cons_zero]
      simp only [ge_iff_le, show 5 ≤ more.length + 1 + 1 + 1 + 1 + 1 by omega,
        show ¬ 7 ≤ more.length + 1 + 1 + 1 + 1 + 1 by omega, if_true, if_false]
    · subst e; subst e'
      unfold scanOptions
      dsimp only
      rw [if_pos (by simp), if_neg (mt hany.1 hh)]
      simp only [List.length_cons, bind, Except.bind, pure, Except.pure, vget, List.getElem?_cons_succ, List.getElem?_cons_zero]
      simp only [ge_iff_le, show 5 ≤ more.length + 1 + 1 + 1 + 1 + 1 + 1 + 1 by omega,
        show 7 ≤ more.length + 1 + 1 + 1 + 1 + 1 + 1 + 1 by omega, if_true]
  refine ⟨?_, ?_, main⟩
  · unfold scanOptions
    simp only [List.length_singleton, h12]
    rw [if_neg (by omega)]
    rfl
  · by_cases hh : "--help".toList ∈ args ∨ "-h".toList ∈ args
    · refine iff_of_true ?_ hh
      unfold scanOptions
      dsimp only
      rw [if_pos, if_pos (hany.2 hh)]
      · rfl
      · cases args with
        | nil => simp at hh
        | cons => simp
    · refine iff_of_false ?_ hh
      match args, main hh, hh with
      | [], _, _ => simp [scanOptions, pure, Except.pure]
      | [n], m, _ => rw [(m n [] rfl).1 (by simp)]; simp
      | [n, x], m, _ => rw [(m n [x] rfl).1 (by simp)]; simp
      | [n, x, y], m, _ => rw [(m n [x, y] rfl).1 (by simp)]; simp
      | [n, x, y, z], m, _ => rw [(m n _ rfl).2.1 x y z [] rfl (by simp)]; simp
      | [n, x, y, z, w], m, _ => rw [(m n _ rfl).2.1 x y z [w] rfl (by simp)]; simp
      | n :: x :: y :: z :: w :: d :: more, m, _ => rw [(m n _ rfl).2.2 x y z w d more rfl]; simp

/-- A case of C123: `test_geolib_lrf 9 3 1 0` sets the beams and the pose and keeps the size of the object. -/
example : scanOptions (fun _ => 9) (fun s => if s = "3".toList then 3 else if s = "1".toList then 1 else 0)
    ["test_geolib_lrf".toList, "9".toList, "3".toList, "1".toList, "0".toList] = .ok (some ⟨9, 3, 1, 0, 1, 2⟩) := by
  rw [((C123_options _ _ _ ["9".toList, "3".toList, "1".toList, "0".toList]).2.2 (by decide) _ _ rfl).2.1 _ _ _ [] rfl (by simp)]
  simp

/-- C123: for an object in front of the sensor that is seen within half a turn less two beams, the program draws the corners of
the object less than 2.5 pixels off, and each beam at its own angle: a beam that shows nothing is drawn 10 m long; any other shows
the distance of a point of the surface of the object on the beam, and ends less than one pixel off that point (if it is at least
0.1 mm away). If the nearest point of the surface on a beam is strictly inside a triangle that has the sensor on its outer side,
that is the point shown. -/
theorem C123_picture (o : ScanOptions) (hn : 1 ≤ o.numBeams) (hn' : o.numBeams ≤ 2 ^ 29) (hL : 0 < o.L) (hL' : o.L ≤ 10 ^ 6)
    (hW : 0 < o.W) (hW' : o.W ≤ 10 ^ 6) (hx : |o.x| ≤ 10 ^ 6) (hy : |o.y| ≤ 10 ^ 6) {α : ℝ} (hα : -(Real.pi / 2) ≤ α)
    (hw : SeenWithin (Transform3.ofXYZRPY o.x o.y 0 0 0 o.yaw)
      (InBox ⟨-o.L / 2, -o.W / 2, -1 / 2⟩ ⟨o.L / 2, o.W / 2, 1 / 2⟩) α
      (α + (Real.pi - 2 * (Real.pi / (max (o.numBeams - 1) 1 : ℕ))))) :
    ∃ pic a b c d ts, scanPicture o = .ok pic ∧ pic.corners = [a, b, c, d] ∧
      NearPixel (5 / 2) a (placed o.x o.y o.yaw (-(o.L / 2)) (-(o.W / 2))) ∧
      NearPixel (5 / 2) b (placed o.x o.y o.yaw (o.L / 2) (-(o.W / 2))) ∧
      NearPixel (5 / 2) c (placed o.x o.y o.yaw (o.L / 2) (o.W / 2)) ∧
      NearPixel (5 / 2) d (placed o.x o.y o.yaw (-(o.L / 2)) (o.W / 2)) ∧
      soup (Box.new ⟨-o.L / 2, -o.W / 2, -1 / 2⟩ ⟨o.L / 2, o.W / 2, 1 / 2⟩).mesh.points
        (Box.new ⟨-o.L / 2, -o.W / 2, -1 / 2⟩ ⟨o.L / 2, o.W / 2, 1 / 2⟩).mesh.tris = some ts ∧
      pic.ranges.length = o.numBeams ∧ pic.ends.length = o.numBeams ∧
      ∀ j < o.numBeams, ∃ r e, pic.ranges[j]? = some r ∧ pic.ends[j]? = some e ∧
        ∃ θ, θ = beamAngle (-(Real.pi / 2)) (Real.pi / 2) o.numBeams j ∧
        ((r = 0 ∧ NearPixel 1 e (onPicture (10 * Real.cos θ) (10 * Real.sin θ))) ∨
          ∃ D : ℝ, 0 < D ∧ r = D ∧ (1 / 10000 ≤ D → NearPixel 1 e (onPicture (D * Real.cos θ) (D * Real.sin θ))) ∧
            ∃ p, OnSurface ts p ∧
              (Transform3.ofXYZRPY o.x o.y 0 0 0 o.yaw).apply p = ⟨D * Real.cos θ, D * Real.sin θ, 0⟩) ∧
        ∀ s u, BeamIn (Transform3.ofXYZRPY o.x o.y 0 0 0 o.yaw) θ s u →
          ∀ D, IsLeast {t | 0 < t ∧ OnSurface ts (along s u t)} D → D ≤ 100 →
            (∃ c ∈ ts, InsideTriangle c.1 c.2.1 c.2.2 (along s u D) ∧ 0 < side c s) → r = D := by
  obtain ⟨l, k, k1, k2, hF, l1, l2, l3, l4, l5⟩ := sensor hn hn'
  obtain ⟨hm, hs⟩ := box_mesh ⟨-o.L / 2, -o.W / 2, -1 / 2⟩ ⟨o.L / 2, o.W / 2, 1 / 2⟩
  have hP : Proper ⟨-o.L / 2, -o.W / 2, -1 / 2⟩ ⟨o.L / 2, o.W / 2, 1 / 2⟩ := by
    refine ⟨?_, ?_, by norm_num⟩ <;> simp only <;> linarith
  have hT : Rotation (Transform3.ofXYZRPY o.x o.y 0 0 0 o.yaw).R := setRPY_rotation 0 0 o.yaw
  set T := Transform3.ofXYZRPY o.x o.y 0 0 0 o.yaw with hTd
  set m := (Box.new ⟨-o.L / 2, -o.W / 2, -1 / 2⟩ ⟨o.L / 2, o.W / 2, 1 / 2⟩).mesh with hmd
  have sp : spacing (l.setRangeLimits 0.01 100) = Real.pi / (max (o.numBeams - 1) 1 : ℕ) := l5
  have hw' : SeenWithin T (OnSurface (boxSoup ⟨-o.L / 2, -o.W / 2, -1 / 2⟩ ⟨o.L / 2, o.W / 2, 1 / 2⟩)) α
      (α + (Real.pi - 2 * spacing (l.setRangeLimits 0.01 100))) := by
    rw [sp]
    exact fun p hp hz => hw p (boxSoup_in hP hp) hz
  have hα' : (l.setRangeLimits 0.01 100).aMin ≤ α := by change l.aMin ≤ α; rw [l2]; exact hα
  have hn0 : (l.setRangeLimits 0.01 100).numBeams = o.numBeams := l1
  have hb : ∀ j, beamAngle (l.setRangeLimits 0.01 100).aMin (l.setRangeLimits 0.01 100).aMax
      (l.setRangeLimits 0.01 100).numBeams j = beamAngle (-(Real.pi / 2)) (Real.pi / 2) o.numBeams j := by
    intro j
    change beamAngle l.aMin l.aMax l.numBeams j = _
    rw [l1, l2, l3]
  obtain ⟨res, e1, e2, e3⟩ := C77_render hF m hm.2 T (List.replicate o.numBeams 0)
  have old : ∀ j : ℕ, ((List.replicate o.numBeams (0 : EReal))[j]?).getD 0 = 0 := by
    intro j
    by_cases hj : j < o.numBeams
    · simp [hj]
    · simp [hj]
  obtain ⟨a, b, c, d, c0, c1, c2, c3, c4⟩ := cornerPoints_ok (x := o.x) (y := o.y) (L := o.L) (W := o.W) o.yaw hx hy
    (by rw [abs_of_pos hL]; exact hL') (by rw [abs_of_pos hW]; exact hW')
  -- the places of surface points
  have place : ∀ p, OnSurface (boxSoup ⟨-o.L / 2, -o.W / 2, -1 / 2⟩ ⟨o.L / 2, o.W / 2, 1 / 2⟩) p →
      |(T.apply p).x| ≤ 10 ^ 7 ∧ |(T.apply p).y| ≤ 10 ^ 7 := by
    intro p hp
    obtain ⟨p1, p2, p3, p4, p5, p6⟩ := boxSoup_in hP hp
    simp only at p1 p2 p3 p4
    have q1 : |p.x| ≤ 10 ^ 6 := by rw [abs_le]; constructor <;> linarith
    have q2 : |p.y| ≤ 10 ^ 6 := by rw [abs_le]; constructor <;> linarith
    have t1 : ∀ {c v : ℝ}, |c| ≤ 1 → |v| ≤ 10 ^ 6 → |c * v| ≤ 10 ^ 6 := fun {c v} hc hv => by
      rw [abs_mul]
      calc |c| * |v| ≤ 1 * 10 ^ 6 := mul_le_mul hc hv (abs_nonneg _) (by norm_num)
        _ = 10 ^ 6 := one_mul _
    have u1 := abs_le.1 (t1 (Real.abs_cos_le_one o.yaw) q1)
    have u2 := abs_le.1 (t1 (Real.abs_sin_le_one o.yaw) q2)
    have u3 := abs_le.1 (t1 (Real.abs_sin_le_one o.yaw) q1)
    have u4 := abs_le.1 (t1 (Real.abs_cos_le_one o.yaw) q2)
    have hx' := abs_le.1 hx
    have hy' := abs_le.1 hy
    have ex : (T.apply p).x = Real.cos o.yaw * p.x - Real.sin o.yaw * p.y + o.x := by
      simp only [hTd, Transform3.apply, Transform3.ofXYZRPY, Mat3.setRPY, Mat3.mulVec, Vec3.add_x, Real.cos_zero, Real.sin_zero]
      ring
    have ey : (T.apply p).y = Real.sin o.yaw * p.x + Real.cos o.yaw * p.y + o.y := by
      simp only [hTd, Transform3.apply, Transform3.ofXYZRPY, Mat3.setRPY, Mat3.mulVec, Vec3.add_y, Real.cos_zero, Real.sin_zero]
      ring
    rw [ex, ey, abs_le, abs_le]
    refine ⟨⟨?_, ?_⟩, ?_, ?_⟩ <;> linarith
  have beams : ∀ (j : ℕ) (r : EReal), res.ranges[j]? = some r →
      ∃ e, endPoint 50 250 100 (-90 / 180 * Real.pi + j * (l.setRangeLimits 0.01 100).getAngleIncrement) r = .ok e ∧
        ∃ θ, θ = beamAngle (-(Real.pi / 2)) (Real.pi / 2) o.numBeams (0 + j) ∧
        ((r = 0 ∧ NearPixel 1 e (onPicture (10 * Real.cos θ) (10 * Real.sin θ))) ∨
          ∃ D : ℝ, 0 < D ∧ r = D ∧ (1 / 10000 ≤ D → NearPixel 1 e (onPicture (D * Real.cos θ) (D * Real.sin θ))) ∧
            ∃ p, OnSurface (boxSoup ⟨-o.L / 2, -o.W / 2, -1 / 2⟩ ⟨o.L / 2, o.W / 2, 1 / 2⟩) p ∧
              T.apply p = ⟨D * Real.cos θ, D * Real.sin θ, 0⟩) := by
    intro j r hr
    have hj : j < o.numBeams := by
      have := (List.getElem?_eq_some_iff.1 hr).1
      omega
    have hth : -90 / 180 * Real.pi + j * (l.setRangeLimits 0.01 100).getAngleIncrement =
        beamAngle (-(Real.pi / 2)) (Real.pi / 2) o.numBeams j := by
      change _ + j * l.getAngleIncrement = _
      rw [l4, ← hb j]
      change _ = beamAngle l.aMin l.aMax l.numBeams j
      rw [LRF.beamAngle_eq, l2]
      ring
    rw [hth, Nat.zero_add]
    generalize hθ : beamAngle (-(Real.pi / 2)) (Real.pi / 2) o.numBeams j = θ
    have far : ∀ d : ℝ, d * 100 < 0.01 → ∃ e, endPoint 50 250 100 θ (d : EReal) = .ok e ∧
        NearPixel 1 e (onPicture (10 * Real.cos θ) (10 * Real.sin θ)) := by
      intro d hd
      obtain ⟨e, f1, f2⟩ := endPoint_ok (th := θ) (d := d) (r := 1000) (by rw [if_pos hd])
        (by rw [abs_mul]; have := Real.abs_cos_le_one θ; rw [abs_of_pos (by norm_num : (0 : ℝ) < 1000)]; linarith)
        (by rw [abs_mul]; have := Real.abs_sin_le_one θ; rw [abs_of_pos (by norm_num : (0 : ℝ) < 1000)]; linarith)
      refine ⟨e, f1, ?_⟩
      have : onPicture (10 * Real.cos θ) (10 * Real.sin θ) = (50 + 1000 * Real.cos θ, 250 - 1000 * Real.sin θ) := by
        unfold onPicture; ext <;> simp only <;> ring
      rwa [this]
    by_cases hc : r = 0
    · obtain ⟨e, f1, f2⟩ := far 0 (by norm_num)
      subst hc
      exact ⟨e, f1, θ, rfl, .inl ⟨rfl, f2⟩⟩
    · obtain ⟨D, D0, rfl, p, hp, hpT⟩ := scan_range hF m hm _ hs T hα' hw' _ e1 (by rw [hn0]; exact hj) hr
        (by rw [old j]; exact hc)
      rw [hb j, hθ] at hpT
      by_cases hD : D * 100 < 0.01
      · obtain ⟨e, f1, f2⟩ := far D hD
        refine ⟨e, f1, θ, rfl, .inr ⟨D, D0, rfl, fun h => ?_, p, hp, hpT⟩⟩
        norm_num at hD
        linarith
      · have hpl := place p hp
        rw [hpT] at hpl
        simp only [abs_le] at hpl
        obtain ⟨e, f1, f2⟩ := endPoint_ok (th := θ) (d := D) (r := D * 100) (by rw [if_neg hD])
          (by rw [abs_le]; constructor <;> linarith [hpl.1.1, hpl.1.2])
          (by rw [abs_le]; constructor <;> linarith [hpl.2.1, hpl.2.2])
        refine ⟨e, f1, θ, rfl, .inr ⟨D, D0, rfl, fun _ => ?_, p, hp, hpT⟩⟩
        have : onPicture (D * Real.cos θ) (D * Real.sin θ) = (50 + D * 100 * Real.cos θ, 250 - D * 100 * Real.sin θ) := by
          unfold onPicture; ext <;> simp only <;> ring
        rwa [this]
  obtain ⟨es, g1, g2, g3⟩ := endPoints_ok (fun j r e => ∃ θ, θ = beamAngle (-(Real.pi / 2)) (Real.pi / 2) o.numBeams j ∧
        ((r = 0 ∧ NearPixel 1 e (onPicture (10 * Real.cos θ) (10 * Real.sin θ))) ∨
          ∃ D : ℝ, 0 < D ∧ r = D ∧ (1 / 10000 ≤ D → NearPixel 1 e (onPicture (D * Real.cos θ) (D * Real.sin θ))) ∧
            ∃ p, OnSurface (boxSoup ⟨-o.L / 2, -o.W / 2, -1 / 2⟩ ⟨o.L / 2, o.W / 2, 1 / 2⟩) p ∧
              T.apply p = ⟨D * Real.cos θ, D * Real.sin θ, 0⟩)) res.ranges (-90 / 180 * Real.pi) 0 beams
  refine ⟨⟨res.ranges, [a, b, c, d], es⟩, a, b, c, d, _, ?_, rfl, c1, c2, c3, c4, hs, by rw [← hn0]; exact e2,
    by rw [← hn0, ← e2]; exact g2, fun j hj => ?_⟩
  · unfold scanPicture
    simp only [bind, Except.bind, pure, Except.pure, k1, k2]
    rw [← hmd, ← hTd, e1]
    simp only [show (501 / 10 : ℕ) = 50 from rfl, show (501 / 2 : ℕ) = 250 from rfl, c0, g1]
  · obtain ⟨r, r1, -⟩ := e3 j (by rw [hn0]; exact hj)
    obtain ⟨e, f1, θ, hθ, f2⟩ := g3 j r r1
    rw [Nat.zero_add] at hθ
    refine ⟨r, e, r1, f1, θ, hθ, f2, fun s u hB D hD hD' hin => ?_⟩
    obtain ⟨res', new, q1, q2, q3, -⟩ := C101_mesh_partial hF (by norm_num [LRF.setRangeLimits]) m hm _ hs T hT hα' hw'
      (List.replicate o.numBeams 0) (j := j) (by rw [hn0]; exact hj) (o := s) (u := u) (by rw [hb j, ← hθ]; exact hB)
    rw [e1, Except.ok.injEq] at q1
    subst q1
    simp only [r1, Option.some.injEq] at q2
    subst q2
    have := q3 D hD (by simpa [LRF.setRangeLimits] using hD') hin
    rw [old j] at this
    simpa [nearer] using this

/-- The hypotheses of C123 are met by the parameters that the program uses without arguments, and the beam straight ahead (the
fourth of seven) shows the near side of the object at 1.5 m: it is drawn at the pixel (200, 250). -/
example : ∃ pic e, scanPicture ⟨7, 2, 1 / 2, Real.pi / 2, 1, 2⟩ = .ok pic ∧ pic.ranges[3]? = some ((3 / 2 : ℝ) : EReal) ∧
    pic.ends[3]? = some e ∧ NearPixel 1 e (200, 250) := by
  have hp := Real.pi_pos
  have ap : ∀ p, (Transform3.ofXYZRPY 2 (1 / 2) 0 0 0 (Real.pi / 2)).apply p = ⟨2 - p.y, 1 / 2 + p.x, p.z⟩ := fun p => by
    ext <;> norm_num [Transform3.apply, Transform3.ofXYZRPY, Mat3.setRPY, Mat3.mulVec] <;> ring
  obtain ⟨pic, _, _, _, _, ts, h1, _, _, _, _, _, hs, _, _, h2⟩ := C123_picture ⟨7, 2, 1 / 2, Real.pi / 2, 1, 2⟩ (by norm_num)
    (by norm_num) (by norm_num) (by norm_num) (by norm_num) (by norm_num) (by norm_num) (by norm_num [abs_of_pos])
    (α := -(Real.pi / 4)) (by linarith) (by
      intro p hp' _
      obtain ⟨p1, p2, p3, p4, p5, p6⟩ := hp'
      simp only at p1 p2 p3 p4 p5 p6
      rw [ap]
      have := abs_le.1 (atan2_cone (x := 2 - p.y) (y := 1 / 2 + p.x) (by linarith) (by rw [abs_le]; constructor <;> linarith))
      refine ⟨this.1, this.2.trans ?_⟩
      norm_num
      linarith)
  obtain ⟨r, e, e1, e2, θ, hθ, e3, e4⟩ := h2 3 (by norm_num)
  have h0 : θ = 0 := by rw [hθ]; unfold beamAngle; push_cast; norm_num; ring
  subst h0
  rw [(box_mesh _ _).2, Option.some.injEq] at hs
  subst hs
  have hB : BeamIn (Transform3.ofXYZRPY 2 (1 / 2) 0 0 0 (Real.pi / 2)) 0 ⟨-1 / 2, 2, 0⟩ ⟨0, -1, 0⟩ := fun t => by
    rw [ap]
    ext <;> simp [along]
    norm_num
  have hr : r = ((3 / 2 : ℝ) : EReal) := by
    have hc : ((⟨2 / 2, 1 / 2, -1 / 2⟩, ⟨-2 / 2, 1 / 2, -1 / 2⟩, ⟨-2 / 2, 1 / 2, 1 / 2⟩) : Vec3 × Vec3 × Vec3) ∈
        boxSoup ⟨-2 / 2, -1 / 2, -1 / 2⟩ ⟨2 / 2, 1 / 2, 1 / 2⟩ := by
      simp [boxSoup]
    refine e4 _ _ hB (3 / 2) ⟨⟨by norm_num, _, hc, 1 / 4, 1 / 4, 1 / 2, by norm_num, by norm_num, by norm_num, by norm_num,
      by norm_num [along]⟩, fun t ht => ?_⟩ (by norm_num) ⟨_, hc, ⟨1 / 4, 1 / 4, 1 / 2, by norm_num, by norm_num, by norm_num,
      by norm_num, by norm_num [along], by norm_num [along], by norm_num [along]⟩, by norm_num [side]⟩
    obtain ⟨_, _, _, q, _⟩ := boxSoup_in (by norm_num [Proper]) ht.2
    simp only [along] at q
    linarith
  refine ⟨pic, e, h1, by rw [← hr]; exact e1, e2, ?_⟩
  rcases e3 with ⟨z, -⟩ | ⟨D, _, hD, hn, -⟩
  · rw [hr] at z
    norm_num at z
  · rw [hr, EReal.coe_eq_coe_iff] at hD
    subst hD
    have := hn (by norm_num)
    convert this using 1
    unfold onPicture
    norm_num

end Geo
