import Verif.Spec.Scan
import Verif.Lemmas.LaserRangeFinderMesh
import Verif.Lemmas.Inside
import Verif.Lemmas.Sphere

/-!
# Lemmas about scans and ray tests of the same object
-/

namespace Geo

open Spec

/-- Affine combinations and poses. -/
theorem apply_comb (T : Transform3) {A B C p : Vec3} {a b c : ℝ} (h : a + b + c = 1)
    (hx : p.x = a * A.x + b * B.x + c * C.x) (hy : p.y = a * A.y + b * B.y + c * C.y)
    (hz : p.z = a * A.z + b * B.z + c * C.z) :
    (T.apply p).x = a * (T.apply A).x + b * (T.apply B).x + c * (T.apply C).x ∧
    (T.apply p).y = a * (T.apply A).y + b * (T.apply B).y + c * (T.apply C).y ∧
    (T.apply p).z = a * (T.apply A).z + b * (T.apply B).z + c * (T.apply C).z := by
  have hc : c = 1 - a - b := by linarith
  subst hc
  simp only [Transform3.apply, Mat3.mulVec, Vec3.add_x, Vec3.add_y, Vec3.add_z, hx, hy, hz]
  refine ⟨?_, ?_, ?_⟩ <;> ring

/-- The points of the section of a posed triangle are its posed points at height 0. -/
theorem section_iff (T : Transform3) (A B C : Vec3) (q : Vec2) :
    InSection ⟨(T.apply A).x, (T.apply A).y⟩ ⟨(T.apply B).x, (T.apply B).y⟩ ⟨(T.apply C).x, (T.apply C).y⟩
      (T.apply A).z (T.apply B).z (T.apply C).z q ↔
    ∃ p, InTri (A, B, C) p ∧ T.apply p = ⟨q.x, q.y, 0⟩ := by
  constructor
  · rintro ⟨a, b, c, h1, h2, h3, h4, h5, h6, h7⟩
    refine ⟨_, ⟨a, b, c, h1, h2, h3, h4, rfl⟩, ?_⟩
    obtain ⟨e1, e2, e3⟩ := apply_comb T (A := A) (B := B) (C := C)
      (p := ⟨a * A.x + b * B.x + c * C.x, a * A.y + b * B.y + c * C.y, a * A.z + b * B.z + c * C.z⟩) h4 rfl rfl rfl
    exact Vec3.ext (e1.trans h6.symm) (e2.trans h7.symm) (e3.trans h5)
  · rintro ⟨p, ⟨a, b, c, h1, h2, h3, h4, rfl⟩, hp⟩
    obtain ⟨e1, e2, e3⟩ := apply_comb T (A := A) (B := B) (C := C)
      (p := ⟨a * A.x + b * B.x + c * C.x, a * A.y + b * B.y + c * C.y, a * A.z + b * B.z + c * C.z⟩) h4 rfl rfl rfl
    simp only [hp] at e1 e2 e3
    exact ⟨a, b, c, h1, h2, h3, h4, e3.symm, e1, e2⟩

/-- A rigid pose is injective. -/
theorem rigid_inj {T : Transform3} (h : Rigid T) {p q : Vec3} (e : T.apply p = T.apply q) : p = q := by
  have hd : distSq (T.apply p) (T.apply q) = distSq p q := rigid_apply_sq h p q
  rw [e] at hd
  have : distSq p q = 0 := by rw [← hd]; simp [distSq]
  unfold distSq at this
  have h1 := sq_nonneg (p.x - q.x)
  have h2 := sq_nonneg (p.y - q.y)
  have h3 := sq_nonneg (p.z - q.z)
  ext
  · have : (p.x - q.x) ^ 2 = 0 := by linarith
    have := pow_eq_zero_iff (two_ne_zero) |>.1 this
    linarith
  · have : (p.y - q.y) ^ 2 = 0 := by linarith
    have := pow_eq_zero_iff (two_ne_zero) |>.1 this
    linarith
  · have : (p.z - q.z) ^ 2 = 0 := by linarith
    have := pow_eq_zero_iff (two_ne_zero) |>.1 this
    linarith

/-- A triangle faces the sensor iff the sensor is on its outer side. -/
theorem faces_iff {T : Transform3} (h : Rotation T.R) {o : Vec3} (ho : T.apply o = ⟨0, 0, 0⟩) (A B C : Vec3) :
    FacesOrigin (T.apply A) (T.apply B) (T.apply C) ↔ 0 < side (A, B, C) o := by
  have hd := ((rotation_iff T.R).1 h).2
  have tx := congrArg Vec3.x ho
  have ty := congrArg Vec3.y ho
  have tz := congrArg Vec3.z ho
  simp only [Transform3.apply, Mat3.mulVec, Vec3.add_x, Vec3.add_y, Vec3.add_z] at tx ty tz
  have e : ((((T.apply B).y - (T.apply A).y) * ((T.apply C).z - (T.apply A).z) -
        ((T.apply B).z - (T.apply A).z) * ((T.apply C).y - (T.apply A).y)) * (T.apply A).x +
      (((T.apply B).z - (T.apply A).z) * ((T.apply C).x - (T.apply A).x) -
        ((T.apply B).x - (T.apply A).x) * ((T.apply C).z - (T.apply A).z)) * (T.apply A).y +
      (((T.apply B).x - (T.apply A).x) * ((T.apply C).y - (T.apply A).y) -
        ((T.apply B).y - (T.apply A).y) * ((T.apply C).x - (T.apply A).x)) * (T.apply A).z) =
      (T.R.xx * (T.R.yy * T.R.zz - T.R.yz * T.R.zy) - T.R.xy * (T.R.yx * T.R.zz - T.R.yz * T.R.zx)
        + T.R.xz * (T.R.yx * T.R.zy - T.R.yy * T.R.zx)) * -side (A, B, C) o := by
    have ax : T.t.x = -(T.R.xx * o.x + T.R.xy * o.y + T.R.xz * o.z) := by linarith
    have ay : T.t.y = -(T.R.yx * o.x + T.R.yy * o.y + T.R.yz * o.z) := by linarith
    have az : T.t.z = -(T.R.zx * o.x + T.R.zy * o.y + T.R.zz * o.z) := by linarith
    simp only [Transform3.apply, Mat3.mulVec, Vec3.add_x, Vec3.add_y, Vec3.add_z, side, ax, ay, az]
    ring
  unfold FacesOrigin
  rw [e, hd]
  constructor <;> intro h <;> linarith

/-- Entering a box through a face that is a lower bound: the start was below it. -/
theorem entry_lo {lx hx ly hy lz hz ox oy oz ux uy uz D : ℝ} (hl : lx < hx)
    (hD : ∀ t, lx ≤ ox + t * ux → ox + t * ux ≤ hx → ly ≤ oy + t * uy → oy + t * uy ≤ hy → lz ≤ oz + t * uz →
      oz + t * uz ≤ hz → D ≤ t) (h0 : 0 < D) (ex : ox + D * ux = lx) (y1 : ly < oy + D * uy) (y2 : oy + D * uy < hy)
    (z1 : lz < oz + D * uz) (z2 : oz + D * uz < hz) : ox < lx := by
  by_contra hc
  have hu : ux ≤ 0 := by
    by_contra hu
    have := mul_pos h0 (not_le.1 hu)
    linarith
  have c : ∀ a b : ℝ, ContinuousAt (fun t : ℝ => a + t * b) D := fun a b => by fun_prop
  have e := ((c ox ux).eventually_lt (continuousAt_const (y := hx)) (by rw [ex]; exact hl)).and
    ((((continuousAt_const (y := ly)).eventually_lt (c oy uy) y1).and ((c oy uy).eventually_lt continuousAt_const y2)).and
      (((continuousAt_const (y := lz)).eventually_lt (c oz uz) z1).and ((c oz uz).eventually_lt continuousAt_const z2)))
  obtain ⟨ε, hε, hb⟩ := Metric.eventually_nhds_iff.1 e
  obtain ⟨b1, ⟨b2, b3⟩, b4, b5⟩ := hb (y := D - ε / 2) (by
    rw [Real.dist_eq, show D - ε / 2 - D = -(ε / 2) by ring, abs_neg, abs_of_pos (by linarith)]; linarith)
  have hm : 0 ≤ -ux * (ε / 2) := mul_nonneg (by linarith) (by linarith)
  have := hD (D - ε / 2) (by linarith) b1.le b2.le b3.le b4.le b5.le
  linarith

/-- Entering a box through a face that is an upper bound: the start was above it. -/
theorem entry_hi {lx hx ly hy lz hz ox oy oz ux uy uz D : ℝ} (hl : lx < hx)
    (hD : ∀ t, lx ≤ ox + t * ux → ox + t * ux ≤ hx → ly ≤ oy + t * uy → oy + t * uy ≤ hy → lz ≤ oz + t * uz →
      oz + t * uz ≤ hz → D ≤ t) (h0 : 0 < D) (ex : ox + D * ux = hx) (y1 : ly < oy + D * uy) (y2 : oy + D * uy < hy)
    (z1 : lz < oz + D * uz) (z2 : oz + D * uz < hz) : hx < ox := by
  have := entry_lo (lx := -hx) (hx := -lx) (ox := -ox) (ux := -ux) (by linarith)
    (fun t a1 a2 a3 a4 a5 a6 => hD t (by linarith) (by linarith) a3 a4 a5 a6) h0 (by linarith) y1 y2 z1 z2
  linarith

/-- A point at which a line enters a box, strictly inside a triangle of the box: the start is on the outer side of the
triangle. -/
theorem entry_side {lo hi o u : Vec3} (h1 : lo.x < hi.x) (h2 : lo.y < hi.y) (h3 : lo.z < hi.z) {D : ℝ} (h0 : 0 < D)
    (hD : ∀ t, InBox lo hi (along o u t) → D ≤ t) {c : Vec3 × Vec3 × Vec3} (hc : c ∈ boxSoup lo hi)
    (hX : InsideTriangle c.1 c.2.1 c.2.2 (along o u D)) : 0 < side c o := by
  have dx : 0 < hi.x - lo.x := by linarith
  have dy : 0 < hi.y - lo.y := by linarith
  have dz : 0 < hi.z - lo.z := by linarith
  have xl : (along o u D).x = lo.x → lo.y < (along o u D).y → (along o u D).y < hi.y → lo.z < (along o u D).z →
      (along o u D).z < hi.z → o.x < lo.x := fun e a b c d =>
    entry_lo h1 (fun t a1 a2 a3 a4 a5 a6 => hD t ⟨a1, a2, a3, a4, a5, a6⟩) h0 e a b c d
  have xh : (along o u D).x = hi.x → lo.y < (along o u D).y → (along o u D).y < hi.y → lo.z < (along o u D).z →
      (along o u D).z < hi.z → hi.x < o.x := fun e a b c d =>
    entry_hi h1 (fun t a1 a2 a3 a4 a5 a6 => hD t ⟨a1, a2, a3, a4, a5, a6⟩) h0 e a b c d
  have yl : (along o u D).y = lo.y → lo.x < (along o u D).x → (along o u D).x < hi.x → lo.z < (along o u D).z →
      (along o u D).z < hi.z → o.y < lo.y := fun e a b c d =>
    entry_lo h2 (fun t a1 a2 a3 a4 a5 a6 => hD t ⟨a3, a4, a1, a2, a5, a6⟩) h0 e a b c d
  have yh : (along o u D).y = hi.y → lo.x < (along o u D).x → (along o u D).x < hi.x → lo.z < (along o u D).z →
      (along o u D).z < hi.z → hi.y < o.y := fun e a b c d =>
    entry_hi h2 (fun t a1 a2 a3 a4 a5 a6 => hD t ⟨a3, a4, a1, a2, a5, a6⟩) h0 e a b c d
  have zl : (along o u D).z = lo.z → lo.x < (along o u D).x → (along o u D).x < hi.x → lo.y < (along o u D).y →
      (along o u D).y < hi.y → o.z < lo.z := fun e a b c d =>
    entry_lo h3 (fun t a1 a2 a3 a4 a5 a6 => hD t ⟨a3, a4, a5, a6, a1, a2⟩) h0 e a b c d
  have zh : (along o u D).z = hi.z → lo.x < (along o u D).x → (along o u D).x < hi.x → lo.y < (along o u D).y →
      (along o u D).y < hi.y → hi.z < o.z := fun e a b c d =>
    entry_hi h3 (fun t a1 a2 a3 a4 a5 a6 => hD t ⟨a3, a4, a5, a6, a1, a2⟩) h0 e a b c d
  obtain ⟨a, b, g, p1, p2, p3, ps, ex, ey, ez⟩ := hX
  generalize along o u D = X at *
  have mix : ∀ {l h x : ℝ} (k : ℝ), 0 < k → k < 1 → l < h → x = l + k * (h - l) → l < x ∧ x < h := by
    intro l h x k k0 k1 hl e
    have := mul_pos k0 (sub_pos.2 hl)
    have := mul_pos (sub_pos.2 k1) (sub_pos.2 hl)
    constructor <;> linarith
  simp only [boxSoup, List.mem_cons, List.not_mem_nil, or_false] at hc
  have ag : g = 1 - a - b := by linarith
  subst ag
  rcases hc with rfl | rfl | rfl | rfl | rfl | rfl | rfl | rfl | rfl | rfl | rfl | rfl <;> simp only at ex ey ez <;>
    simp only [side]
  · obtain ⟨m1, m2⟩ := mix (x := X.x) a (by linarith) (by linarith) h1 (by rw [ex]; ring)
    obtain ⟨m3, m4⟩ := mix (x := X.y) (1 - a - b) (by linarith) (by linarith) h2 (by rw [ey]; ring)
    have := zl (by rw [ez]; ring) m1 m2 m3 m4
    linarith [mul_pos (mul_pos dx dy) (sub_pos.2 this)]
  · obtain ⟨m1, m2⟩ := mix (x := X.x) (a + (1 - a - b)) (by linarith) (by linarith) h1 (by rw [ex]; ring)
    obtain ⟨m3, m4⟩ := mix (x := X.y) (b + (1 - a - b)) (by linarith) (by linarith) h2 (by rw [ey]; ring)
    have := zl (by rw [ez]; ring) m1 m2 m3 m4
    linarith [mul_pos (mul_pos dx dy) (sub_pos.2 this)]
  · obtain ⟨m1, m2⟩ := mix (x := X.x) b (by linarith) (by linarith) h1 (by rw [ex]; ring)
    obtain ⟨m3, m4⟩ := mix (x := X.y) (1 - a - b) (by linarith) (by linarith) h2 (by rw [ey]; ring)
    have := zh (by rw [ez]; ring) m1 m2 m3 m4
    linarith [mul_pos (mul_pos dx dy) (sub_pos.2 this)]
  · obtain ⟨m1, m2⟩ := mix (x := X.x) (b + (1 - a - b)) (by linarith) (by linarith) h1 (by rw [ex]; ring)
    obtain ⟨m3, m4⟩ := mix (x := X.y) (a + (1 - a - b)) (by linarith) (by linarith) h2 (by rw [ey]; ring)
    have := zh (by rw [ez]; ring) m1 m2 m3 m4
    linarith [mul_pos (mul_pos dx dy) (sub_pos.2 this)]
  · obtain ⟨m1, m2⟩ := mix (x := X.y) (1 - a - b) (by linarith) (by linarith) h2 (by rw [ey]; ring)
    obtain ⟨m3, m4⟩ := mix (x := X.z) b (by linarith) (by linarith) h3 (by rw [ez]; ring)
    have := xl (by rw [ex]; ring) m1 m2 m3 m4
    linarith [mul_pos (mul_pos dy dz) (sub_pos.2 this)]
  · obtain ⟨m1, m2⟩ := mix (x := X.y) (a + (1 - a - b)) (by linarith) (by linarith) h2 (by rw [ey]; ring)
    obtain ⟨m3, m4⟩ := mix (x := X.z) (b + (1 - a - b)) (by linarith) (by linarith) h3 (by rw [ez]; ring)
    have := xl (by rw [ex]; ring) m1 m2 m3 m4
    linarith [mul_pos (mul_pos dy dz) (sub_pos.2 this)]
  · obtain ⟨m1, m2⟩ := mix (x := X.y) (1 - a - b) (by linarith) (by linarith) h2 (by rw [ey]; ring)
    obtain ⟨m3, m4⟩ := mix (x := X.z) a (by linarith) (by linarith) h3 (by rw [ez]; ring)
    have := xh (by rw [ex]; ring) m1 m2 m3 m4
    linarith [mul_pos (mul_pos dy dz) (sub_pos.2 this)]
  · obtain ⟨m1, m2⟩ := mix (x := X.y) (b + (1 - a - b)) (by linarith) (by linarith) h2 (by rw [ey]; ring)
    obtain ⟨m3, m4⟩ := mix (x := X.z) (a + (1 - a - b)) (by linarith) (by linarith) h3 (by rw [ez]; ring)
    have := xh (by rw [ex]; ring) m1 m2 m3 m4
    linarith [mul_pos (mul_pos dy dz) (sub_pos.2 this)]
  · obtain ⟨m1, m2⟩ := mix (x := X.x) b (by linarith) (by linarith) h1 (by rw [ex]; ring)
    obtain ⟨m3, m4⟩ := mix (x := X.z) (1 - a - b) (by linarith) (by linarith) h3 (by rw [ez]; ring)
    have := yl (by rw [ey]; ring) m1 m2 m3 m4
    linarith [mul_pos (mul_pos dx dz) (sub_pos.2 this)]
  · obtain ⟨m1, m2⟩ := mix (x := X.x) (b + (1 - a - b)) (by linarith) (by linarith) h1 (by rw [ex]; ring)
    obtain ⟨m3, m4⟩ := mix (x := X.z) (a + (1 - a - b)) (by linarith) (by linarith) h3 (by rw [ez]; ring)
    have := yl (by rw [ey]; ring) m1 m2 m3 m4
    linarith [mul_pos (mul_pos dx dz) (sub_pos.2 this)]
  · obtain ⟨m1, m2⟩ := mix (x := X.x) a (by linarith) (by linarith) h1 (by rw [ex]; ring)
    obtain ⟨m3, m4⟩ := mix (x := X.z) (1 - a - b) (by linarith) (by linarith) h3 (by rw [ez]; ring)
    have := yh (by rw [ey]; ring) m1 m2 m3 m4
    linarith [mul_pos (mul_pos dx dz) (sub_pos.2 this)]
  · obtain ⟨m1, m2⟩ := mix (x := X.x) (a + (1 - a - b)) (by linarith) (by linarith) h1 (by rw [ex]; ring)
    obtain ⟨m3, m4⟩ := mix (x := X.z) (b + (1 - a - b)) (by linarith) (by linarith) h3 (by rw [ez]; ring)
    have := yh (by rw [ey]; ring) m1 m2 m3 m4
    linarith [mul_pos (mul_pos dx dz) (sub_pos.2 this)]

/-- Index triangles and their corners. -/
theorem soup_pairs {ps : List Vec3} {is : List TriI} {ts : List (Vec3 × Vec3 × Vec3)} (hs : soup ps is = some ts) :
    (∀ c ∈ ts, ∃ i ∈ is, ps[i.i1]? = some c.1 ∧ ps[i.i2]? = some c.2.1 ∧ ps[i.i3]? = some c.2.2) ∧
    (∀ i ∈ is, ∃ c ∈ ts, ps[i.i1]? = some c.1 ∧ ps[i.i2]? = some c.2.1 ∧ ps[i.i3]? = some c.2.2) := by
  rw [Mesh.soup_some] at hs
  induction hs with
  | nil => simp
  | @cons i c is ts h _ ih =>
    constructor
    · intro d hd
      rcases List.mem_cons.1 hd with rfl | hd
      · exact ⟨i, by simp, h⟩
      · obtain ⟨k, hk, e⟩ := ih.1 d hd
        exact ⟨k, by simp [hk], e⟩
    · intro d hd
      rcases List.mem_cons.1 hd with rfl | hd
      · exact ⟨c, by simp, h⟩
      · obtain ⟨k, hk, e⟩ := ih.2 d hd
        exact ⟨k, by simp [hk], e⟩

/-- A section point of a posed triangle of a mesh is a posed point of the surface. -/
theorem section_surface {T : Transform3} {ps : List Vec3} {is : List TriI} {ts : List (Vec3 × Vec3 × Vec3)}
    (hs : soup ps is = some ts) {t : TriI} (ht : t ∈ is) {A B C : Vec3} (hp : PosedTriangle T ps t A B C) {q : Vec2}
    (hq : InSection ⟨A.x, A.y⟩ ⟨B.x, B.y⟩ ⟨C.x, C.y⟩ A.z B.z C.z q) :
    ∃ p, OnSurface ts p ∧ T.apply p = ⟨q.x, q.y, 0⟩ := by
  obtain ⟨c, hc, e1, e2, e3⟩ := (soup_pairs hs).2 t ht
  obtain ⟨a, b, d, f1, f2, f3, rfl, rfl, rfl⟩ := hp
  rw [e1] at f1
  rw [e2] at f2
  rw [e3] at f3
  obtain ⟨p, hp, e⟩ := (section_iff T a b d q).1 hq
  refine ⟨p, ⟨c, hc, ?_⟩, e⟩
  rw [Option.some.injEq] at f1 f2 f3
  rwa [← f1, ← f2, ← f3] at hp

/-- The triangles of a box are in the box. -/
theorem boxSoup_in {lo hi p : Vec3} (h : Proper lo hi) (hp : OnSurface (boxSoup lo hi) p) : InBox lo hi p := by
  obtain ⟨c, hc, a, b, g, p1, p2, p3, ps, rfl⟩ := hp
  have key : ∀ {l k x y z : ℝ}, l ≤ x → l ≤ y → l ≤ z → x ≤ k → y ≤ k → z ≤ k →
      l ≤ a * x + b * y + g * z ∧ a * x + b * y + g * z ≤ k := by
    intro l k x y z x1 y1 z1 x2 y2 z2
    have el : l = a * l + b * l + g * l := by rw [← add_mul, ← add_mul, ps, one_mul]
    have ek : k = a * k + b * k + g * k := by rw [← add_mul, ← add_mul, ps, one_mul]
    have i1 := mul_le_mul_of_nonneg_left x1 p1
    have i2 := mul_le_mul_of_nonneg_left y1 p2
    have i3 := mul_le_mul_of_nonneg_left z1 p3
    have i4 := mul_le_mul_of_nonneg_left x2 p1
    have i5 := mul_le_mul_of_nonneg_left y2 p2
    have i6 := mul_le_mul_of_nonneg_left z2 p3
    constructor <;> linarith
  have hc8 : ∀ v ∈ [c.1, c.2.1, c.2.2], InBox lo hi v := fun v hv =>
    inBox_corners h v (soup_corner_mem (boxTris_soup [] lo hi) c hc v hv)
  have i1 := hc8 c.1 (by simp)
  have i2 := hc8 c.2.1 (by simp)
  have i3 := hc8 c.2.2 (by simp)
  obtain ⟨kx1, kx2⟩ := key i1.1 i2.1 i3.1 i1.2.1 i2.2.1 i3.2.1
  obtain ⟨ky1, ky2⟩ := key i1.2.2.1 i2.2.2.1 i3.2.2.1 i1.2.2.2.1 i2.2.2.2.1 i3.2.2.2.1
  obtain ⟨kz1, kz2⟩ := key i1.2.2.2.2.1 i2.2.2.2.2.1 i3.2.2.2.2.1 i1.2.2.2.2.2 i2.2.2.2.2.2 i3.2.2.2.2.2
  exact ⟨kx1, kx2, ky1, ky2, kz1, kz2⟩

/-- A line that is in a box at two parameters is in it between them. -/
theorem along_between {lo hi o u : Vec3} {s t r : ℝ} (hs : InBox lo hi (along o u s)) (ht : InBox lo hi (along o u t))
    (h1 : s ≤ r) (h2 : r ≤ t) : InBox lo hi (along o u r) := by
  have key : ∀ {l h a b : ℝ}, l ≤ a + s * b → a + s * b ≤ h → l ≤ a + t * b → a + t * b ≤ h →
      l ≤ a + r * b ∧ a + r * b ≤ h := by
    intro l h a b i1 i2 i3 i4
    rcases le_total 0 b with hb | hb
    · have := mul_le_mul_of_nonneg_right h1 hb
      have := mul_le_mul_of_nonneg_right h2 hb
      constructor <;> linarith
    · have := mul_le_mul_of_nonpos_right h1 hb
      have := mul_le_mul_of_nonpos_right h2 hb
      constructor <;> linarith
  obtain ⟨a1, a2, a3, a4, a5, a6⟩ := hs
  obtain ⟨b1, b2, b3, b4, b5, b6⟩ := ht
  obtain ⟨x1, x2⟩ := key a1 a2 b1 b2
  obtain ⟨y1, y2⟩ := key a3 a4 b3 b4
  obtain ⟨z1, z2⟩ := key a5 a6 b5 b6
  exact ⟨x1, x2, y1, y2, z1, z2⟩

/-- The direction of a beam in the frame of an object is a unit vector. -/
theorem beam_unit {T : Transform3} (h : Rigid T) {a : ℝ} {o u : Vec3} (hB : BeamIn T a o u) : UnitAlong u u := by
  refine ⟨?_, 1, one_pos, by ring, by ring, by ring⟩
  have e := rigid_apply_sq h (along o u 1) (along o u 0)
  rw [hB 1, hB 0] at e
  simp only [distSq, along] at e
  have := Real.cos_sq_add_sin_sq a
  ring_nf at e this ⊢
  linarith

/-- The mesh of a box. -/
theorem box_mesh (lo hi : Vec3) : GoodMesh (Box.new lo hi).mesh ∧
    soup (Box.new lo hi).mesh.points (Box.new lo hi).mesh.tris = some (boxSoup lo hi) := by
  have hp : (Box.new lo hi).mesh.points = corners8 lo hi := (generateMesh_points ⟨lo, hi, Mesh.new⟩).2.2
  have ht : (Box.new lo hi).mesh.tris = boxTris 0 := generateMesh_tris ⟨lo, hi, Mesh.new⟩ (by simp [Mesh.new, Mesh.invalidateCache])
  have hs : soup (Box.new lo hi).mesh.points (Box.new lo hi).mesh.tris = some (boxSoup lo hi) := by
    rw [hp, ht]
    exact boxTris_soup [] lo hi
  exact ⟨⟨box_reachable lo hi, soup_lt hs⟩, hs⟩

end Geo
