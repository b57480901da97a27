import Verif.Spec.TestPrograms
import Verif.Lemmas.Scan
import Verif.Lemmas.MeshFilter
import Verif.Lemmas.Rotation
import Verif.Props.LaserRangeFinderMesh

/-!
# Lemmas about the pictures of the test programs
-/

namespace Geo.TestPrograms

open Spec

/-- Truncation moves a number by less than 1. -/
theorem trunc_err (x : ℝ) : |(trunc x : ℝ) - x| < 1 := by
  unfold trunc
  split_ifs with h
  · have h1 := Int.floor_le x
    have h2 := Int.lt_floor_add_one x
    rw [abs_lt]; constructor <;> linarith
  · have h1 := Int.le_ceil x
    have h2 := Int.ceil_lt_add_one x
    rw [abs_lt]; constructor <;> linarith

/-- A conversion to `int` that fits. -/
theorem cast_near {x B : ℝ} (h : |x| ≤ B) (hB : B < 2 ^ 31) : ∃ k, castInt x = .ok k ∧ |(k : ℝ) - x| < 1 :=
  ⟨_, castInt_ok (h.trans_lt hB), trunc_err x⟩

theorem cos_sin_sum (a : ℝ) : |Real.cos a| + |Real.sin a| < 3 / 2 := by
  have h := Real.sin_sq_add_cos_sq a
  have h1 := sq_abs (Real.cos a)
  have h2 := sq_abs (Real.sin a)
  have h3 := abs_nonneg (Real.cos a)
  have h4 := abs_nonneg (Real.sin a)
  nlinarith [sq_nonneg (|Real.cos a| - |Real.sin a|)]

theorem mul_err {c e : ℝ} (h : |e| < 1) : |c * e| ≤ |c| := by
  rw [abs_mul]
  exact (mul_le_mul_of_nonneg_left h.le (abs_nonneg c)).trans_eq (mul_one _)

/-- One coordinate of a corner: a sum of a fixed part and two turned pixel offsets. -/
theorem corner_coord {base c s u v : ℝ} {k m : ℤ} (hcs : |c| + |s| < 3 / 2) (hk : |(k : ℝ) - u| < 1) (hm : |(m : ℝ) - v| < 1)
    (hb : |base| ≤ 10 ^ 9) (hu : |u| ≤ 10 ^ 8) (hv : |v| ≤ 10 ^ 8) {x : ℝ} (hx : x = base + c * k + s * m) :
    ∃ q, castInt x = .ok q ∧ |(q : ℝ) - (base + c * u + s * v)| < 5 / 2 := by
  have e1 := mul_err (c := c) hk
  have e2 := mul_err (c := s) hm
  have c1 : |c| ≤ 3 / 2 := by have := abs_nonneg s; linarith
  have s1 : |s| ≤ 3 / 2 := by have := abs_nonneg c; linarith
  have b1 : |c * u| ≤ 3 / 2 * 10 ^ 8 := by
    rw [abs_mul]; exact mul_le_mul c1 hu (abs_nonneg _) (by norm_num)
  have b2 : |s * v| ≤ 3 / 2 * 10 ^ 8 := by
    rw [abs_mul]; exact mul_le_mul s1 hv (abs_nonneg _) (by norm_num)
  have hd : x - (base + c * u + s * v) = c * (k - u) + s * (m - v) := by rw [hx]; ring
  have hd' : |x - (base + c * u + s * v)| < 3 / 2 := by
    rw [hd]
    exact ((abs_add_le _ _).trans (add_le_add e1 e2)).trans_lt hcs
  rw [abs_lt] at hd'
  rw [abs_le] at hb b1 b2
  obtain ⟨q, h1, h2⟩ := cast_near (x := x) (B := 2 * 10 ^ 9) (by rw [abs_le]; constructor <;> linarith) (by norm_num)
  refine ⟨q, h1, ?_⟩
  rw [abs_lt] at h2 ⊢
  constructor <;> linarith

/-- The corners of the object are drawn less than 2.5 pixels off. -/
theorem cornerPoints_ok {x y L W : ℝ} (yaw : ℝ) (hx : |x| ≤ 10 ^ 6) (hy : |y| ≤ 10 ^ 6) (hL : |L| ≤ 10 ^ 6) (hW : |W| ≤ 10 ^ 6) :
    ∃ a b c d, cornerPoints 50 250 x y L W yaw 100 = .ok [a, b, c, d] ∧
      NearPixel (5 / 2) a (placed x y yaw (-(L / 2)) (-(W / 2))) ∧ NearPixel (5 / 2) b (placed x y yaw (L / 2) (-(W / 2))) ∧
      NearPixel (5 / 2) c (placed x y yaw (L / 2) (W / 2)) ∧ NearPixel (5 / 2) d (placed x y yaw (-(L / 2)) (W / 2)) := by
  have hcs := cos_sin_sum yaw
  have hL' := abs_le.1 hL
  have hW' := abs_le.1 hW
  have hx' := abs_le.1 hx
  have hy' := abs_le.1 hy
  have bL1 : |-L / 2 * 100| ≤ 10 ^ 8 := by rw [abs_le]; constructor <;> linarith
  have bL2 : |L / 2 * 100| ≤ 10 ^ 8 := by rw [abs_le]; constructor <;> linarith
  have bW1 : |-W / 2 * 100| ≤ 10 ^ 8 := by rw [abs_le]; constructor <;> linarith
  have bW2 : |W / 2 * 100| ≤ 10 ^ 8 := by rw [abs_le]; constructor <;> linarith
  obtain ⟨x1, ex1, nx1⟩ := cast_near bL1 (by norm_num)
  obtain ⟨x2, ex2, nx2⟩ := cast_near bL2 (by norm_num)
  obtain ⟨y1, ey1, ny1⟩ := cast_near bW1 (by norm_num)
  obtain ⟨y2, ey2, ny2⟩ := cast_near bW2 (by norm_num)
  have hbx : |((50 : ℕ) : ℝ) + x * 100| ≤ 10 ^ 9 := by push_cast; rw [abs_le]; constructor <;> linarith
  have hby : |((250 : ℕ) : ℝ) - y * 100| ≤ 10 ^ 9 := by push_cast; rw [abs_le]; constructor <;> linarith
  have gx : ∀ {k m : ℤ} {u v : ℝ}, |(k : ℝ) - u| < 1 → |(m : ℝ) - v| < 1 → |u| ≤ 10 ^ 8 → |v| ≤ 10 ^ 8 →
      ∃ q, castInt (((50 : ℕ) : ℝ) + x * 100 + Real.cos (-yaw) * k + Real.sin (-yaw) * m) = .ok q ∧
        |(q : ℝ) - (50 + 100 * x + Real.cos yaw * u - Real.sin yaw * v)| < 5 / 2 := by
    intro k m u v hk hm hu hv
    obtain ⟨q, h1, h2⟩ := corner_coord (base := ((50 : ℕ) : ℝ) + x * 100) (c := Real.cos (-yaw)) (s := Real.sin (-yaw))
      (by rw [Real.cos_neg, Real.sin_neg, abs_neg]; exact hcs) hk hm hbx hu hv rfl
    refine ⟨q, h1, ?_⟩
    rw [Real.cos_neg, Real.sin_neg] at h2
    have : ((50 : ℕ) : ℝ) + x * 100 + Real.cos yaw * u + -Real.sin yaw * v = 50 + 100 * x + Real.cos yaw * u - Real.sin yaw * v := by
      push_cast; ring
    rwa [this] at h2
  have gy : ∀ {k m : ℤ} {u v : ℝ}, |(k : ℝ) - u| < 1 → |(m : ℝ) - v| < 1 → |u| ≤ 10 ^ 8 → |v| ≤ 10 ^ 8 →
      ∃ q, castInt (((250 : ℕ) : ℝ) - (y * 100 - Real.sin (-yaw) * k + Real.cos (-yaw) * m)) = .ok q ∧
        |(q : ℝ) - (250 - 100 * y - Real.sin yaw * u - Real.cos yaw * v)| < 5 / 2 := by
    intro k m u v hk hm hu hv
    obtain ⟨q, h1, h2⟩ := corner_coord (base := ((250 : ℕ) : ℝ) - y * 100) (c := -Real.sin yaw) (s := -Real.cos yaw)
      (x := ((250 : ℕ) : ℝ) - (y * 100 - Real.sin (-yaw) * k + Real.cos (-yaw) * m))
      (by rw [abs_neg, abs_neg]; linarith) hk hm hby hu hv (by rw [Real.cos_neg, Real.sin_neg]; ring)
    refine ⟨q, h1, ?_⟩
    have : ((250 : ℕ) : ℝ) - y * 100 + -Real.sin yaw * u + -Real.cos yaw * v =
        250 - 100 * y - Real.sin yaw * u - Real.cos yaw * v := by
      push_cast; ring
    rwa [this] at h2
  obtain ⟨xt1, a1, b1⟩ := gx nx1 ny1 bL1 bW1
  obtain ⟨xt2, a2, b2⟩ := gx nx2 ny1 bL2 bW1
  obtain ⟨xt3, a3, b3⟩ := gx nx2 ny2 bL2 bW2
  obtain ⟨xt4, a4, b4⟩ := gx nx1 ny2 bL1 bW2
  obtain ⟨yt1, c1, d1⟩ := gy nx1 ny1 bL1 bW1
  obtain ⟨yt2, c2, d2⟩ := gy nx2 ny1 bL2 bW1
  obtain ⟨yt3, c3, d3⟩ := gy nx2 ny2 bL2 bW2
  obtain ⟨yt4, c4, d4⟩ := gy nx1 ny2 bL1 bW2
  refine ⟨(xt1, yt1), (xt2, yt2), (xt3, yt3), (xt4, yt4), ?_, ⟨?_, ?_⟩, ⟨?_, ?_⟩, ⟨?_, ?_⟩, ⟨?_, ?_⟩⟩
  · unfold cornerPoints
    simp only [bind, Except.bind, pure, Except.pure, ex1, ex2, ey1, ey2, a1, a2, a3, a4, c1, c2, c3, c4]
  all_goals simp only [placed, onPicture]
  · convert b1 using 3; ring
  · convert d1 using 3; ring
  · convert b2 using 3; ring
  · convert d2 using 3; ring
  · convert b3 using 3; ring
  · convert d3 using 3; ring
  · convert b4 using 3; ring
  · convert d4 using 3; ring

/-- The end point of a beam whose range is a number. -/
theorem endPoint_ok {th d r : ℝ} (hr : r = if d * 100 < 0.01 then 1000 else d * 100) (hx : |r * Real.cos th| ≤ 10 ^ 9)
    (hy : |r * Real.sin th| ≤ 10 ^ 9) :
    ∃ e, endPoint 50 250 100 th (d : EReal) = .ok e ∧ NearPixel 1 e (50 + r * Real.cos th, 250 - r * Real.sin th) := by
  rw [abs_le] at hx hy
  obtain ⟨p, p1, p2⟩ := cast_near (x := ((50 : ℕ) : ℝ) + r * Real.cos th) (B := 2 * 10 ^ 9)
    (by push_cast; rw [abs_le]; constructor <;> linarith) (by norm_num)
  obtain ⟨q, q1, q2⟩ := cast_near (x := ((250 : ℕ) : ℝ) - r * Real.sin th) (B := 2 * 10 ^ 9)
    (by push_cast; rw [abs_le]; constructor <;> linarith) (by norm_num)
  refine ⟨(p, q), ?_, by push_cast at p2; exact p2, by push_cast at q2; exact q2⟩
  unfold endPoint
  rw [if_neg (EReal.coe_ne_top d)]
  have : (if (d : EReal).toReal * 100 < 0.01 then (10 * 100 : ℝ) else (d : EReal).toReal * 100) = r := by
    rw [hr, EReal.toReal_coe]; norm_num
  simp only [this, bind, Except.bind, pure, Except.pure, p1, q1]

/-- The loop over the ranges draws each beam at its own angle. -/
theorem endPoints_ok {incr : ℝ} (P : ℕ → EReal → ℤ × ℤ → Prop) : ∀ (rs : List EReal) (th : ℝ) (k : ℕ),
    (∀ (j : ℕ) (r : EReal), rs[j]? = some r → ∃ e, endPoint 50 250 100 (th + j * incr) r = .ok e ∧ P (k + j) r e) →
    ∃ es, endPoints 50 250 100 incr rs th = .ok es ∧ es.length = rs.length ∧
      ∀ (j : ℕ) (r : EReal), rs[j]? = some r → ∃ e, es[j]? = some e ∧ P (k + j) r e
  | [], th, k, h => ⟨[], rfl, rfl, fun j r hj => by simp at hj⟩
  | r :: rs, th, k, h => by
    obtain ⟨e, e1, e2⟩ := h 0 r rfl
    simp only [Nat.cast_zero, zero_mul, add_zero] at e1 e2
    obtain ⟨es, f1, f2, f3⟩ := endPoints_ok (incr := incr) P rs (th + incr) (k + 1) fun j r' hj => by
      obtain ⟨e', g1, g2⟩ := h (j + 1) r' (by simpa using hj)
      refine ⟨e', ?_, ?_⟩
      · rw [← g1]; congr 1; push_cast; ring
      · rwa [Nat.add_assoc, Nat.add_comm 1 j]
    refine ⟨e :: es, ?_, by simp [f2], ?_⟩
    · simp only [endPoints, bind, Except.bind, pure, Except.pure, e1, f1]
    · rintro (_ | j) r' hj
      · simp only [List.getElem?_cons_zero, Option.some.injEq] at hj
        subst hj
        exact ⟨e, rfl, e2⟩
      · simp only [List.getElem?_cons_succ] at hj
        obtain ⟨e', g1, g2⟩ := f3 j r' hj
        exact ⟨e', by simpa using g1, by rwa [Nat.add_assoc, Nat.add_comm 1 j] at g2⟩

/-- The sensor of `test_geolib_lrf`. -/
theorem sensor {n : ℕ} (hn : 1 ≤ n) (hn' : n ≤ 2 ^ 29) : ∃ l k, LRF.new.setNumBeams n = .ok k ∧
    k.setAngleLimits (-90 / 180 * Real.pi) (90 / 180 * Real.pi) = .ok l ∧
    Fine (l.setRangeLimits 0.01 100) ∧ l.numBeams = n ∧ l.aMin = -(Real.pi / 2) ∧ l.aMax = Real.pi / 2 ∧
    l.getAngleIncrement = spacing l ∧ spacing l = Real.pi / (max (n - 1) 1 : ℕ) := by
  have hp := Real.pi_pos
  have hm : (1 : ℝ) ≤ (max (n - 1) 1 : ℕ) := by exact_mod_cast (by omega : 1 ≤ max (n - 1) 1)
  have hm' : ((max (n - 1) 1 : ℕ) : ℝ) ≤ 2 ^ 29 := by exact_mod_cast (by omega : max (n - 1) 1 ≤ 2 ^ 29)
  have hm0 : (0 : ℝ) < (max (n - 1) 1 : ℕ) := by linarith
  have e1 : (90 / 180 * Real.pi - -90 / 180 * Real.pi) = Real.pi := by ring
  have hq : Real.pi / (Real.pi / ((max (n - 1) 1 : ℕ) : ℝ)) = (max (n - 1) 1 : ℕ) := by field_simp
  have hc : castUInt (Real.pi / (Real.pi / ((max (n - 1) 1 : ℕ) : ℝ))) = .ok (max (n - 1) 1) := by
    rw [hq]
    unfold castUInt
    rw [trunc, if_pos hm0.le, if_pos]
    · rw [Int.floor_natCast, Int.toNat_natCast]
    · rw [Int.floor_natCast]
      constructor <;> omega
  obtain ⟨l, hl⟩ : ∃ l, ({ LRF.new with numBeams := n } : LRF).setAngleLimits (-90 / 180 * Real.pi) (90 / 180 * Real.pi) = .ok l := by
    unfold LRF.setAngleLimits
    dsimp only
    rw [if_pos ⟨by omega, by rw [e1]; exact hp⟩]
    unfold LRF.calculateRays
    simp only [e1, bind, Except.bind, pure, Except.pure, hc]
    exact ⟨_, rfl⟩
  have h0 : LRF.new.setNumBeams n = .ok { LRF.new with numBeams := n } := by
    unfold LRF.setNumBeams
    dsimp only
    rw [if_neg (by simp [LRF.new])]
  have hrun : LRF.new.run [.numBeams n, .angleLimits (-90 / 180 * Real.pi) (90 / 180 * Real.pi), .rangeLimits 0.01 100] =
      .ok (l.setRangeLimits 0.01 100) := by
    simp only [LRF.run, LRF.step, bind, Except.bind, h0, hl]
  have hrun' : LRF.new.run [.numBeams n, .angleLimits (-90 / 180 * Real.pi) (90 / 180 * Real.pi)] = .ok l := by
    simp only [LRF.run, LRF.step, bind, Except.bind, h0, hl]
  obtain ⟨i0, i1, i2, i3⟩ := LRF.run_inv _ _ _ LRF.inv_new hrun'
  simp only [List.foldl, Prod.mk.injEq] at i1 i2 i3
  have a1 : l.aMin = -(Real.pi / 2) := by rw [i1.1]; ring
  have a2 : l.aMax = Real.pi / 2 := by rw [i1.2]; ring
  have hsp : spacing l = Real.pi / (max (n - 1) 1 : ℕ) := by
    unfold spacing
    rw [a1, a2, i3]
    congr 1
    ring
  refine ⟨l, _, h0, hl, ⟨⟨⟨_, hrun⟩, ?_, ?_⟩, ?_, ?_, ?_⟩, i3, a1, a2, (i0 (by omega) (by rw [a1, a2]; linarith)).2.1, hsp⟩
  · change 0 < l.numBeams; omega
  · change l.aMin < l.aMax; rw [a1, a2]; linarith
  · change _ ≤ l.aMin; rw [a1]; linarith
  · change l.aMax ≤ _; rw [a2]; linarith
  · change _ < _ * spacing l
    rw [hsp, ← mul_div_assoc, lt_div_iff₀ hm0]
    nlinarith

/-- Ranges of a mesh seen within less than half a turn are numbers, distances to surface points. -/
theorem scan_range {l : LRF} (h : Fine l) (m : Mesh) (hm : GoodMesh m)
    (ts : List (Vec3 × Vec3 × Vec3)) (hs : soup m.points m.tris = some ts) (T : Transform3)
    {α : ℝ} (hα : l.aMin ≤ α) (hw : SeenWithin T (OnSurface ts) α (α + (Real.pi - 2 * spacing l)))
    (ranges : List EReal) {res : RenderResult} (e1 : l.render m T ranges = .ok res) {j : ℕ} (hj : j < l.numBeams) {new : EReal}
    (n1 : res.ranges[j]? = some new) (hc : new ≠ (ranges[j]?).getD 0) :
    ∃ d : ℝ, 0 < d ∧ new = d ∧ ∃ p, OnSurface ts p ∧ T.apply p =
      ⟨d * Real.cos (beamAngle l.aMin l.aMax l.numBeams j), d * Real.sin (beamAngle l.aMin l.aMax l.numBeams j), 0⟩ := by
  have sec : ∀ t ∈ m.tris, ∀ A B C, PosedTriangle T m.points t A B C →
      ∀ q, InSection ⟨A.x, A.y⟩ ⟨B.x, B.y⟩ ⟨C.x, C.y⟩ A.z B.z C.z q →
        α ≤ atan2 q.y q.x ∧ atan2 q.y q.x ≤ α + (Real.pi - 2 * spacing l) := by
    intro t ht A B C hp q hq
    obtain ⟨p, hp, e⟩ := section_surface hs ht hp hq
    have := hw p hp (by rw [e])
    rwa [e] at this
  obtain ⟨d, d0, rfl, t, ht, A, B, C, hp, hq⟩ := C79_surface_partial h m hm T ranges (fun t ht A B C hp u v hu hv => by
    have su := sec t ht A B C hp u hu
    have sv := sec t ht A B C hp v hv
    refine ⟨hα.trans su.1, ?_⟩
    have g1 := idx_gap h (a := atan2 u.y u.x) (b := atan2 v.y v.x) (by linarith)
    have g2 := idx_gap h (a := atan2 v.y v.x) (b := atan2 u.y u.x) (by linarith)
    unfold idx at g1 g2
    unfold OnePart
    rw [abs_lt]
    constructor <;> omega) e1 hj n1 hc
  obtain ⟨p, hp, e⟩ := section_surface hs ht hp hq
  exact ⟨d, d0, rfl, p, hp, e⟩

end Geo.TestPrograms
