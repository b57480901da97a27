import Verif.Spec.Special
import Verif.Lemmas.OctreeTree
import Verif.Spec.Mesh

/-!
# Helper lemmas on points with special coordinates
-/

namespace Geo

namespace Fl

@[simp] theorem add_fin (a b : ℝ) : add (.fin a) (.fin b) = .fin (a + b) := rfl
@[simp] theorem neg_fin (a : ℝ) : neg (.fin a) = .fin (-a) := rfl
@[simp] theorem sub_fin (a b : ℝ) : sub (.fin a) (.fin b) = .fin (a - b) := by simp [sub, sub_eq_add_neg]
@[simp] theorem mul_fin (a b : ℝ) : mul (.fin a) (.fin b) = .fin (a * b) := rfl
@[simp] theorem abs_fin (a : ℝ) : abs (.fin a) = .fin |a| := rfl
@[simp] theorem lt_fin (a b : ℝ) : lt (.fin a) (.fin b) = true ↔ a < b := by simp [lt]
@[simp] theorem le_fin (a b : ℝ) : le (.fin a) (.fin b) = true ↔ a ≤ b := by simp [le]
@[simp] theorem eq_fin (a b : ℝ) : eq (.fin a) (.fin b) = true ↔ a = b := by simp [eq]
theorem sqrt_fin {a : ℝ} (h : 0 ≤ a) : sqrt (.fin a) = .fin (Real.sqrt a) := by
  simp [sqrt, h]
theorem div_fin {a b : ℝ} (h : b ≠ 0) : div (.fin a) (.fin b) = .fin (a / b) := by
  simp [div, h]

@[simp] theorem nan_add (a : Fl) : add .nan a = .nan := rfl
@[simp] theorem add_nan (a : Fl) : add a .nan = .nan := by cases a <;> rfl
@[simp] theorem neg_nan : neg .nan = .nan := rfl
@[simp] theorem nan_sub (a : Fl) : sub .nan a = .nan := rfl
@[simp] theorem sub_nan (a : Fl) : sub a .nan = .nan := by simp [sub]
@[simp] theorem nan_mul (a : Fl) : mul .nan a = .nan := rfl
@[simp] theorem mul_nan (a : Fl) : mul a .nan = .nan := by cases a <;> rfl
@[simp] theorem nan_div (a : Fl) : div .nan a = .nan := rfl
@[simp] theorem div_nan (a : Fl) : div a .nan = .nan := by cases a <;> rfl
@[simp] theorem sqrt_nan : sqrt .nan = .nan := rfl
@[simp] theorem abs_nan : abs .nan = .nan := rfl
@[simp] theorem nan_lt (a : Fl) : lt .nan a = false := rfl
@[simp] theorem lt_nan (a : Fl) : lt a .nan = false := by cases a <;> rfl
@[simp] theorem nan_le (a : Fl) : le .nan a = false := rfl
@[simp] theorem le_nan (a : Fl) : le a .nan = false := by cases a <;> rfl
@[simp] theorem nan_eq (a : Fl) : eq .nan a = false := rfl
@[simp] theorem eq_nan (a : Fl) : eq a .nan = false := by cases a <;> rfl

end Fl

namespace FVec

/-- (Device of the proofs.) Some coordinate is not a number. -/
def Bad (v : FVec) : Prop := v.x = .nan ∨ v.y = .nan ∨ v.z = .nan

theorem Bad.sub_left {a : FVec} (h : a.Bad) (b : FVec) : (a.sub b).Bad := by
  unfold Bad FVec.sub at *
  rcases h with h | h | h <;> simp [h]

theorem Bad.sub_right {b : FVec} (h : b.Bad) (a : FVec) : (a.sub b).Bad := by
  unfold Bad FVec.sub at *
  rcases h with h | h | h <;> simp [h]

theorem Bad.dot_left {a : FVec} (h : a.Bad) (b : FVec) : a.dot b = .nan := by
  unfold FVec.dot
  rcases h with h | h | h <;> simp [h]

theorem Bad.dot_right {b : FVec} (h : b.Bad) (a : FVec) : a.dot b = .nan := by
  unfold FVec.dot
  rcases h with h | h | h <;> simp [h]

theorem Bad.length2 {a : FVec} (h : a.Bad) : a.length2 = .nan := by
  unfold FVec.length2
  rcases h with h | h | h <;> simp [h]

theorem Bad.length {a : FVec} (h : a.Bad) : a.length = .nan := by
  unfold FVec.length
  rw [h.length2]; rfl

theorem Bad.cross_right {b : FVec} (h : b.Bad) (a : FVec) : (a.cross b).Bad := by
  unfold FVec.cross Bad
  rcases h with h | h | h <;> simp [h]

theorem smul_nan (v : FVec) : (FVec.smul .nan v).Bad := by simp [FVec.smul, Bad]

@[simp] theorem sub_ofVec (a b : Vec3) : (ofVec a).sub (ofVec b) = ofVec (a - b) := by
  simp only [FVec.sub, ofVec, Fl.sub_fin]; rfl
@[simp] theorem dot_ofVec (a b : Vec3) : (ofVec a).dot (ofVec b) = .fin (a.dot b) := by
  simp [FVec.dot, ofVec, Vec3.dot]
@[simp] theorem cross_ofVec (a b : Vec3) : (ofVec a).cross (ofVec b) = ofVec (a.cross b) := by
  simp [FVec.cross, ofVec, Vec3.cross]
@[simp] theorem length2_ofVec (a : Vec3) : (ofVec a).length2 = .fin a.length2 := by
  simp [FVec.length2, ofVec, Vec3.length2]
theorem length2_nonneg' (a : Vec3) : 0 ≤ a.length2 := by
  simp only [Vec3.length2]; nlinarith [mul_self_nonneg a.x, mul_self_nonneg a.y, mul_self_nonneg a.z]
@[simp] theorem length_ofVec (a : Vec3) : (ofVec a).length = .fin a.length := by
  rw [FVec.length, length2_ofVec, Fl.sqrt_fin (length2_nonneg' a)]
  simp [Vec3.length, Vec3.length2]
@[simp] theorem eq_ofVec (a b : Vec3) : (ofVec a).eq (ofVec b) = true ↔ a = b := by
  simp [FVec.eq, ofVec, Vec3.ext_iff, and_assoc]

end FVec

/-! ## Finite points: the functions of the other modules -/

open FVec

theorem Box.containsS_fin (b : Box) (p : Vec3) : b.containsS (ofVec p) = b.contains p := by
  rw [Bool.eq_iff_iff]
  simp [Box.containsS, Box.contains, ofVec, and_assoc]

theorem Box.closestCoordS_fin (lo hi c p : ℝ) : Box.closestCoordS lo hi c (.fin p) = .fin (Box.closestCoord lo hi c p) := by
  unfold Box.closestCoordS Box.closestCoord
  simp only [Bool.and_eq_true, Fl.lt_fin, gt_iff_lt]
  split_ifs <;> rfl

theorem Box.intersectSphereS_fin (b : Box) (p : Vec3) (r : ℝ) :
    b.intersectSphereS (ofVec p) r = b.intersectSphere p r := by
  unfold Box.intersectSphereS Box.intersectSphere
  rw [Box.containsS_fin]
  by_cases h : r ≤ 0
  · simp [h]
  · simp only [h, if_false]
    have e : ∀ c : Vec3, (⟨Box.closestCoordS b.lo.x b.hi.x c.x (ofVec p).x, Box.closestCoordS b.lo.y b.hi.y c.y (ofVec p).y,
        Box.closestCoordS b.lo.z b.hi.z c.z (ofVec p).z⟩ : FVec) =
        ofVec ⟨Box.closestCoord b.lo.x b.hi.x c.x p.x, Box.closestCoord b.lo.y b.hi.y c.y p.y,
          Box.closestCoord b.lo.z b.hi.z c.z p.z⟩ := by
      intro c
      simp [ofVec, Box.closestCoordS_fin]
    rw [e, sub_ofVec, length2_ofVec, Bool.eq_iff_iff]
    simp

/-- (Device of the proofs.) A finite line segment. -/
def FLS.ofLS (l : LS) : FLS := ⟨ofVec l.a, ofVec l.b, ofVec l.u, ofVec l.v⟩

@[simp] theorem FLS.new_fin (a b : Vec3) : FLS.new (ofVec a) (ofVec b) = FLS.ofLS (LS.new a b) := by
  simp [FLS.new, FLS.ofLS, LS.new]

@[simp] theorem sideProductS_fin (p q : LS) : sideProductS (.ofLS p) (.ofLS q) = .fin (sideProduct p q) := by
  simp [sideProductS, FLS.ofLS, sideProduct]

theorem lineLinesegmentIntersectionS_fin (l ls : LS) (o : Vec3) :
    lineLinesegmentIntersectionS (.ofLS l) (.ofLS ls) (ofVec o) = lineLinesegmentIntersection l ls o := by
  rw [Bool.eq_iff_iff]
  unfold lineLinesegmentIntersectionS lineLinesegmentIntersection
  rw [show (FLS.ofLS ls).a = ofVec ls.a from rfl, show (FLS.ofLS ls).b = ofVec ls.b from rfl]
  simp only [sideProductS_fin, FLS.new_fin, Fl.mul_fin]
  by_cases h : sideProduct l ls = 0 <;> simp [h]

theorem displacedCornerS_fin (t : Tri) (l : LS) :
    displacedCornerS (ofVec t.p1) (ofVec t.p2) (ofVec t.p3) (.ofLS l) = ofVec (displacedCorner t l) := by
  unfold displacedCornerS displacedCorner
  have e0 : (⟨(ofVec t.p3).x.add (.fin 1), (ofVec t.p3).y, (ofVec t.p3).z⟩ : FVec) = ofVec ⟨t.p3.x + 1, t.p3.y, t.p3.z⟩ := rfl
  have e1 : (⟨(ofVec t.p3).x, (ofVec t.p3).y.add (.fin 1), (ofVec t.p3).z⟩ : FVec) = ofVec ⟨t.p3.x, t.p3.y + 1, t.p3.z⟩ := rfl
  have e2 : (⟨(ofVec t.p3).x, (ofVec t.p3).y, (ofVec t.p3).z.add (.fin 1)⟩ : FVec) = ofVec ⟨t.p3.x, t.p3.y, t.p3.z + 1⟩ := rfl
  simp only [e0, e1, e2, FLS.new_fin, sideProductS_fin, Fl.abs_fin, Bool.or_eq_true, Fl.le_fin, ge_iff_le]
  split_ifs <;> rfl

theorem compute2DIntersectionS_fin (t : Tri) (l : LS) :
    compute2DIntersectionS (ofVec t.p1) (ofVec t.p2) (ofVec t.p3) (.ofLS l) = compute2DIntersection t l := by
  unfold compute2DIntersectionS compute2DIntersection
  rw [displacedCornerS_fin]
  rw [Bool.eq_iff_iff]
  simp [lineLinesegmentIntersectionS_fin]

@[simp] theorem triangleAreaS_fin (a b c : Vec3) : triangleAreaS (ofVec a) (ofVec b) (ofVec c) = .fin (triangleArea a b c) := by
  simp [triangleAreaS, triangleArea]

theorem checkLinesegmentS_fin (p : Vec3) (r : ℝ) (a ab : Vec3) :
    checkLinesegmentS (ofVec p) (.fin r) (ofVec a) (ofVec ab) = checkLinesegment p r a ab := by
  rw [Bool.eq_iff_iff]
  unfold checkLinesegmentS checkLinesegment
  simp only [sub_ofVec, length2_ofVec, dot_ofVec, Fl.mul_fin, Fl.lt_fin]
  by_cases h : ab.dot (p - a) < 0
  · simp [h]
  · simp only [h, if_false]
    by_cases h0 : ab.length2 = 0
    · have hz : ab.dot (p - a) = 0 := by
        simp only [Vec3.length2] at h0
        have hx : ab.x = 0 := by nlinarith [mul_self_nonneg ab.x, mul_self_nonneg ab.y, mul_self_nonneg ab.z]
        have hy : ab.y = 0 := by nlinarith [mul_self_nonneg ab.x, mul_self_nonneg ab.y, mul_self_nonneg ab.z]
        have hz : ab.z = 0 := by nlinarith [mul_self_nonneg ab.x, mul_self_nonneg ab.y, mul_self_nonneg ab.z]
        simp [Vec3.dot, hx, hy, hz]
      simp [h0, hz, Fl.div, Fl.inf]
    · simp [h0, Fl.div_fin h0]

namespace Shape

open Classical in
theorem containsStepS_fin (p o : Vec3) (it : TriI) (v1 v2 v3 : Vec3) (st : HitState) :
    containsStepS (ofVec p) (ofVec o) it (ofVec v1) (ofVec v2) (ofVec v3) st = containsStep p o it v1 v2 v3 st := by
  unfold containsStepS containsStep
  have hc := compute2DIntersectionS_fin ⟨v1, v2, v3⟩ (LS.new p o)
  simp only at hc
  simp only [FLS.new_fin, sideProductS_fin, hc, Fl.mul_fin, Fl.abs_fin, triangleAreaS_fin, Fl.add_fin, Fl.sub_fin]
  generalize sideProduct (LS.new p o) (LS.new v1 v2) = s1
  generalize sideProduct (LS.new p o) (LS.new v2 v3) = s2
  generalize sideProduct (LS.new p o) (LS.new v3 v1) = s3
  have hlt : ∀ a b : ℝ, Fl.lt (.fin a) (.fin b) = decide (a < b) := fun a b => rfl
  generalize g1 : ((Fl.fin (-1e-16)).le (.fin s1) && (Fl.fin (-1e-16)).le (.fin s2) && (Fl.fin (-1e-16)).le (.fin s3)) = cw
  generalize g2 : ((Fl.fin s1).le (.fin 1e-16) && (Fl.fin s2).le (.fin 1e-16) && (Fl.fin s3).le (.fin 1e-16)) = ccw
  generalize g3 : decide (s1 ≥ -1e-16 ∧ s2 ≥ -1e-16 ∧ s3 ≥ -1e-16) = cw'
  generalize g4 : decide (s1 ≤ 1e-16 ∧ s2 ≤ 1e-16 ∧ s3 ≤ 1e-16) = ccw'
  obtain rfl : cw = cw' := by rw [← g1, ← g3, Bool.eq_iff_iff]; simp [and_assoc]
  obtain rfl : ccw = ccw' := by rw [← g2, ← g4, Bool.eq_iff_iff]; simp [and_assoc]
  have k1 : count3 ((Fl.fin 1e-16).lt (.fin s1)) ((Fl.fin 1e-16).lt (.fin s2)) ((Fl.fin 1e-16).lt (.fin s3)) =
      count3 (decide (s1 > 1e-16)) (decide (s2 > 1e-16)) (decide (s3 > 1e-16)) := by simp only [hlt, gt_iff_lt]
  have k2 : count3 ((Fl.fin s1).lt (.fin (-1e-16))) ((Fl.fin s2).lt (.fin (-1e-16))) ((Fl.fin s3).lt (.fin (-1e-16))) =
      count3 (decide (s1 < -1e-16)) (decide (s2 < -1e-16)) (decide (s3 < -1e-16)) := by simp only [hlt]
  rw [k1, k2]
  clear g1 g2 g3 g4 k1 k2
  generalize count3 (decide (s1 > 1e-16)) (decide (s2 > 1e-16)) (decide (s3 > 1e-16)) = n1
  generalize count3 (decide (s1 < -1e-16)) (decide (s2 < -1e-16)) (decide (s3 < -1e-16)) = n2
  simp only [Fl.lt_fin, Fl.le_fin, gt_iff_lt, ge_iff_le]
  by_cases a1 : (!cw && !ccw) = true
  · rw [if_pos a1, if_pos a1]
  rw [if_neg a1, if_neg a1]
  by_cases a2 : (cw && ccw) = true
  · rw [if_pos a2, if_pos a2]
  rw [if_neg a2, if_neg a2]
  by_cases a3 : ((cw && decide (0 < n1)) || (ccw && decide (0 < n2))) = true
  swap
  · rw [if_neg a3, if_neg a3]
  rw [if_pos a3, if_pos a3]
  by_cases a4 : -1e-16 ≤ sideProduct (LS.new o v1) (LS.new v2 v3) * sideProduct (LS.new v1 p) (LS.new v2 v3)
  swap
  · rw [if_neg a4, if_neg a4]
  rw [if_pos a4, if_pos a4]
  by_cases a5 : n1 = 2 ∨ n2 = 2
  · rw [if_pos a5, if_pos a5]
    by_cases b1 : |s1| < 1e-16
    · simp only [b1, if_true]
      split_ifs <;> simp_all
    · simp only [b1, if_false]
      by_cases b2 : |s2| < 1e-16
      · simp only [b2, if_true]
        split_ifs <;> simp_all
      · simp only [b2, if_false]
        split_ifs <;> simp_all
  rw [if_neg a5, if_neg a5]
  by_cases a6 : n1 = 1 ∨ n2 = 1
  · rw [if_pos a6, if_pos a6]
    by_cases b1 : 1e-16 < |s2|
    · simp only [b1, if_true, eq_ofVec]
    · simp only [b1, if_false]
      by_cases b2 : 1e-16 < |s3|
      · simp only [b2, if_true, eq_ofVec]
      · simp only [b2, if_false, eq_ofVec]
  rw [if_neg a6, if_neg a6]

theorem containsLoopS_fin (p o : Vec3) (pts : List Vec3) (ts : List TriI) (st : HitState) :
    containsLoopS (ofVec p) (ofVec o) pts ts st = containsLoop p o pts ts st := by
  induction ts generalizing st with
  | nil => rfl
  | cons it ts ih =>
    unfold containsLoopS containsLoop
    simp only [containsStepS_fin, ih]
    rfl

theorem containsMeshS_fin (m : Mesh) (p : Vec3) : containsMeshS m (ofVec p) = containsMesh m p := by
  unfold containsMeshS containsMesh
  rw [length2_ofVec, show (⟨.fin (1.1 * m.getMaxRadius.2), .fin 0, .fin 0⟩ : FVec) = ofVec ⟨1.1 * m.getMaxRadius.2, 0, 0⟩ from rfl,
    containsLoopS_fin]
  simp only [Fl.lt_fin, gt_iff_lt]

theorem sphereHitsTriangleS_fin (p : Vec3) (r : ℝ) (v1 v2 v3 : Vec3) :
    sphereHitsTriangleS (ofVec p) (.fin r) (ofVec v1) (ofVec v2) (ofVec v3) = sphereHitsTriangle p r v1 v2 v3 := by
  unfold sphereHitsTriangleS sphereHitsTriangle
  simp only [sub_ofVec, length2_ofVec, checkLinesegmentS_fin, Fl.lt_fin, cross_ofVec, dot_ofVec, Fl.mul_fin]
  by_cases h1 : (v1 - p).length2 < r
  · simp only [h1, if_true]
  by_cases h2 : (v2 - p).length2 < r
  · simp only [h1, h2, if_true, if_false]
  by_cases h3 : (v3 - p).length2 < r
  · simp only [h1, h2, h3, if_true, if_false]
  simp only [h1, h2, h3, if_false]
  congr 1
  congr 1
  congr 1
  generalize (v2 - v1).cross (v3 - v2) = n
  by_cases h0 : n.length2 = 0
  · have hn : n = 0 := by
      simp only [Vec3.length2] at h0
      apply Vec3.ext
      · show n.x = 0; nlinarith [mul_self_nonneg n.x, mul_self_nonneg n.y, mul_self_nonneg n.z]
      · show n.y = 0; nlinarith [mul_self_nonneg n.x, mul_self_nonneg n.y, mul_self_nonneg n.z]
      · show n.z = 0; nlinarith [mul_self_nonneg n.x, mul_self_nonneg n.y, mul_self_nonneg n.z]
    have hd : (v1 - p).dot n = 0 := by rw [hn]; simp [Vec3.dot]
    have hq : (Fl.fin ((v1 - p).dot n * (v1 - p).dot n)).div (.fin n.length2) = .nan := by
      rw [hd, h0]; simp [Fl.div, Fl.inf]
    rw [if_pos h0, hq, Fl.lt_nan, if_neg (by simp), Fl.sqrt_nan]
    rw [((((smul_nan (ofVec n).normalized).sub_right (ofVec p)).sub_left (ofVec v1)).cross_right
      (ofVec (v2 - v1))).dot_left]
    simp
  · rw [if_neg h0, Fl.div_fin h0]
    have hl : n.length ≠ 0 := by
      intro h
      apply h0
      have := Real.sqrt_eq_zero (FVec.length2_nonneg' n)
      exact this.1 (by simpa [Vec3.length, Vec3.length2] using h)
    have hpos : 0 ≤ (v1 - p).dot n * (v1 - p).dot n / n.length2 :=
      div_nonneg (mul_self_nonneg _) (FVec.length2_nonneg' n)
    have hs : FVec.smul (.fin (Real.sqrt ((v1 - p).dot n * (v1 - p).dot n / n.length2))) (ofVec n).normalized =
        ofVec (Real.sqrt ((v1 - p).dot n * (v1 - p).dot n / n.length2) * n.normalized) := by
      simp only [FVec.smul, FVec.normalized, length_ofVec]
      simp only [ofVec, Fl.div_fin hl, Fl.mul_fin]
      rfl
    rw [Fl.sqrt_fin hpos, hs]
    simp only [sub_ofVec, cross_ofVec, dot_ofVec, Fl.lt_fin, gt_iff_lt]
    congr 1
    rw [Bool.eq_iff_iff]
    simp [and_assoc]

theorem sphereLoopS_fin (p : Vec3) (r : ℝ) (pts : List Vec3) (ts : List TriI) :
    sphereLoopS (ofVec p) (.fin r) pts ts = sphereLoop p r pts ts := by
  induction ts with
  | nil => rfl
  | cons it ts ih =>
    unfold sphereLoopS sphereLoop
    simp only [sphereHitsTriangleS_fin, ih]

theorem intersectSphereMeshS_fin (m : Mesh) (p : Vec3) (r : ℝ) :
    intersectSphereMeshS m (ofVec p) r = intersectSphereMesh m p r := by
  unfold intersectSphereMeshS intersectSphereMesh
  simp only [length_ofVec, Fl.sub_fin, sphereLoopS_fin, containsMeshS_fin, Fl.lt_fin, gt_iff_lt]

end Shape

/-! ## Special points -/

/-- A point that is not finite has a NaN coordinate, or an infinite one and infinite length. -/
theorem FVec.special {p : FVec} (h : ∀ v, p ≠ ofVec v) : p.Bad ∨ p.length2 = .pinf := by
  obtain ⟨x, y, z⟩ := p
  rcases x with a | _ | _ | _ <;> rcases y with b | _ | _ | _ <;> rcases z with c | _ | _ | _ <;>
    first
      | exact absurd rfl (h ⟨a, b, c⟩)
      | exact Or.inr rfl
      | (left; simp [Bad])

theorem Box.containsS_special {p : FVec} (h : ∀ v, p ≠ ofVec v) (b : Box) : b.containsS p = false := by
  obtain ⟨x, y, z⟩ := p
  unfold Box.containsS
  rcases x with a | _ | _ | _ <;> rcases y with b | _ | _ | _ <;> rcases z with c | _ | _ | _ <;>
    first
      | exact absurd rfl (h ⟨a, b, c⟩)
      | simp [Fl.le]

theorem Box.intersectSphereS_special {p : FVec} (h : ∀ v, p ≠ ofVec v) (b : Box) (r : ℝ) :
    b.intersectSphereS p r = false := by
  unfold Box.intersectSphereS
  rw [Box.containsS_special h]
  simp only
  split_ifs with hr
  · rfl
  generalize b.getCenter = c
  have hc : ∀ (lo hi c : ℝ) (x : Fl), (∀ a, x ≠ .fin a) → x.sub (Box.closestCoordS lo hi c x) = x ∨
      x.sub (Box.closestCoordS lo hi c x) = .nan := by
    intro lo hi c x hx
    rcases x with a | _ | _ | _
    · exact absurd rfl (hx a)
    all_goals simp [Box.closestCoordS, Fl.lt, Fl.sub, Fl.add, Fl.neg]
  have hf : ∀ (lo hi c : ℝ) (a : ℝ), ∃ e, (Fl.fin a).sub (Box.closestCoordS lo hi c (.fin a)) = .fin e := by
    intro lo hi c a
    rw [Box.closestCoordS_fin]
    exact ⟨_, Fl.sub_fin _ _⟩
  have key : ∀ q : FVec, (∀ v, q ≠ ofVec v) → Fl.le q.length2 (.fin (r * r)) = false := by
    intro q hq
    rcases FVec.special hq with h | h
    · rw [h.length2]; rfl
    · rw [h]; rfl
  refine key _ ?_
  rintro v hv
  obtain ⟨x, y, z⟩ := p
  simp only [FVec.sub, ofVec, FVec.mk.injEq] at hv
  obtain ⟨h1, h2, h3⟩ := hv
  have fin_of : ∀ (lo hi c : ℝ) (x : Fl) (e : ℝ), x.sub (Box.closestCoordS lo hi c x) = .fin e → ∃ a, x = .fin a := by
    intro lo hi c x e he
    by_contra hx
    push Not at hx
    rcases hc lo hi c x hx with h | h
    · rw [h] at he; exact hx e he
    · rw [h] at he; cases he
  obtain ⟨a, rfl⟩ := fin_of _ _ _ _ _ h1
  obtain ⟨b, rfl⟩ := fin_of _ _ _ _ _ h2
  obtain ⟨c, rfl⟩ := fin_of _ _ _ _ _ h3
  exact h ⟨a, b, c⟩ rfl

namespace Shape

theorem containsStepS_bad {p : FVec} (h : p.Bad) (o : FVec) (it : TriI) (v1 v2 v3 : FVec) (st : HitState) :
    containsStepS p o it v1 v2 v3 st = .go st := by
  have hs : ∀ e, sideProductS (FLS.new p o) e = .nan := by
    intro e
    unfold sideProductS
    rw [show (FLS.new p o).u = o.sub p from rfl, (h.sub_right o).dot_left]
    rfl
  unfold containsStepS
  simp [hs]

theorem containsLoopS_bad {p : FVec} (h : p.Bad) (o : FVec) (pts : List Vec3) (ts : List TriI)
    (hv : Spec.Valid pts ts) (st : HitState) : containsLoopS p o pts ts st =
      .ok (if st.count < 0 ∨ st.count > 1 then false else decide (st.count > 0)) := by
  induction ts generalizing st with
  | nil => rfl
  | cons it ts ih =>
    have := hv it (by simp)
    unfold containsLoopS
    simp only [vget_lt this.1, vget_lt this.2.1, vget_lt this.2.2, bind, Except.bind, containsStepS_bad h]
    exact ih (fun t ht => hv t (by simp [ht])) st

theorem containsMeshS_special {p : FVec} (h : ∀ v, p ≠ ofVec v) (m : Mesh) (hv : Spec.Valid m.points m.tris) :
    containsMeshS m p = .ok false := by
  unfold containsMeshS
  rcases FVec.special h with h | h
  · rw [h.length2, containsLoopS_bad h _ _ _ hv]
    simp
  · rw [h]
    simp [Fl.lt]

theorem checkLinesegmentS_bad {p : FVec} (h : p.Bad) (r : Fl) (a ab : FVec) : checkLinesegmentS p r a ab = false := by
  unfold checkLinesegmentS
  simp [(h.sub_left a).dot_right]

theorem sphereHitsTriangleS_bad {p : FVec} (h : p.Bad) (r : Fl) (v1 v2 v3 : FVec) :
    sphereHitsTriangleS p r v1 v2 v3 = false := by
  unfold sphereHitsTriangleS
  simp [(h.sub_right _).length2, checkLinesegmentS_bad h, (h.sub_right _).dot_left,
    (((h.sub_left _).sub_left _).cross_right _).dot_left]

theorem sphereLoopS_bad {p : FVec} (h : p.Bad) (r : Fl) (pts : List Vec3) (ts : List TriI) (hv : Spec.Valid pts ts) :
    sphereLoopS p r pts ts = .ok false := by
  induction ts with
  | nil => rfl
  | cons it ts ih =>
    have := hv it (by simp)
    unfold sphereLoopS
    simp only [vget_lt this.1, vget_lt this.2.1, vget_lt this.2.2, bind, Except.bind, sphereHitsTriangleS_bad h]
    exact ih (fun t ht => hv t (by simp [ht]))

theorem intersectSphereMeshS_special {p : FVec} (h : ∀ v, p ≠ ofVec v) (m : Mesh) (hv : Spec.Valid m.points m.tris) (r : ℝ) :
    intersectSphereMeshS m p r = .ok false := by
  unfold intersectSphereMeshS
  rw [containsMeshS_special h m hv]
  rcases FVec.special h with h | h
  · rw [h.length, sphereLoopS_bad h _ _ _ hv]
    simp [bind, Except.bind]
  · rw [FVec.length, h]
    simp [Fl.lt, Fl.sqrt, Fl.sub, Fl.add, Fl.neg]

end Shape

/-! ## Octrees -/

namespace OctNode

/-- (Device of the proofs.) `x` is treated like the number `a` in a cube of size `s`. -/
def Like (s : ℝ) (x : Fl) (a : ℝ) : Prop := x = .fin a ∨ ((x = .nan ∨ x = .ninf) ∧ a = 0) ∨ (x = .pinf ∧ a = s)

open Classical in
theorem Like.half {s : ℝ} (hs : 0 < s) {x : Fl} {a : ℝ} (h : Like s x a) :
    (halfS (s / 2) x).1 = decide (a > s / 2) ∧
      Like (s / 2) (halfS (s / 2) x).2 (a - if decide (a > s / 2) then s / 2 else 0) := by
  rcases h with rfl | ⟨rfl | rfl, rfl⟩ | ⟨rfl, rfl⟩
  · unfold halfS
    by_cases h : s / 2 < a
    · rw [if_pos ((Fl.lt_fin _ _).2 h)]
      simp [h, Like]
    · rw [if_neg (fun h' => h ((Fl.lt_fin _ _).1 h'))]
      simp [h, Like]
  · have h : ¬ s / 2 < 0 := by linarith
    simp [halfS, Like, h]
  · have h : ¬ s / 2 < 0 := by linarith
    simp [halfS, Like, h, Fl.lt]
  · have h : a / 2 < a := by linarith
    simp [halfS, Like, h, Fl.lt, Fl.sub, Fl.add, Fl.neg]
    ring

theorem addS_like (res : ℝ) (f : ℕ) : ∀ (k : ℕ) (s : ℝ) (n : OctNode) (p : FVec) (q : Vec3), 0 < s → WF k s n →
    Like s p.x q.x → Like s p.y q.y → Like s p.z q.z → addS res f n p = add res f n q := by
  induction f with
  | zero => intros; rfl
  | succ f ih =>
    intro k s n p q hs hw hx hy hz
    cases n with
    | null => rfl
    | node s' o ch =>
      obtain rfl : s' = s := by cases k <;> exact hw.1
      obtain ⟨x1, x2⟩ := hx.half hs
      obtain ⟨y1, y2⟩ := hy.half hs
      obtain ⟨z1, z2⟩ := hz.half hs
      unfold addS add
      simp only [x1, y1, z1]
      split_ifs with h
      · rfl
      generalize index _ _ _ = i
      have hc : ∃ k', WF k' (s' / 2) (ensure (s' / 2) (ch i)) := by
        cases k with
        | zero => rw [hw.2 i]; exact ⟨0, WF.new _ _⟩
        | succ k =>
          refine ⟨k, ?_⟩
          have := hw.2.2 i
          cases hci : ch i with
          | null => exact WF.new _ _
          | node a b c => rw [hci] at this; exact this
      obtain ⟨k', hk'⟩ := hc
      rw [ih k' (s' / 2) _ _ (q - shift s' _ _ _) (by linarith) hk' x2 y2 z2]

theorem containsS_like (n : OctNode) : ∀ (k : ℕ) (s : ℝ) (p : FVec) (q : Vec3), 0 < s → WF k s n →
    (p.x = .fin q.x ∨ (p.x = .nan ∧ q.x = 0)) → (p.y = .fin q.y ∨ (p.y = .nan ∧ q.y = 0)) →
    (p.z = .fin q.z ∨ (p.z = .nan ∧ q.z = 0)) → n.containsS p = n.contains q := by
  classical
  induction n with
  | null => intros; rfl
  | node s' o ch ih =>
    intro k s p q hs hw hx hy hz
    obtain rfl : s' = s := by cases k <;> exact hw.1
    have key : ∀ (x : Fl) (a : ℝ), (x = .fin a ∨ (x = .nan ∧ a = 0)) →
        Fl.lt (.fin (s' / 2)) x = @decide (a > s' / 2) (Classical.propDecidable _) := by
      rintro x a (rfl | ⟨rfl, rfl⟩)
      · rfl
      · simp
        linarith
    unfold containsS contains
    rw [key _ _ hx, key _ _ hy, key _ _ hz]
    cases o
    · simp only [Bool.false_eq_true, if_false]
      generalize index _ _ _ = i
      cases k with
      | zero => rw [hw.2 i]; rfl
      | succ k => exact ih i k (s' / 2) p q (by linarith) (hw.2.2 i) hx hy hz
    · rfl

end OctNode

namespace Octree

open OctNode Spec

theorem addS_standIn {k : ℕ} {size : ℝ} {t : Octree} (h : Good k size t) (p : FVec) :
    t.addS p = t.add ⟨standIn t.offset.x t.max.x p.x, standIn t.offset.y t.max.y p.y, standIn t.offset.z t.max.z p.z⟩ := by
  have like : ∀ (lo hi : ℝ) (x : Fl), hi - lo = size → Like size (x.sub (.fin lo)) (standIn lo hi x - lo) := by
    intro lo hi x hlo
    rcases x with a | _ | _ | _
    · left; simp [standIn]
    · right; right; exact ⟨rfl, hlo⟩
    · right; left; exact ⟨Or.inr rfl, sub_self _⟩
    · right; left; exact ⟨Or.inl rfl, sub_self _⟩
  have e : t.max.x - t.offset.x = size ∧ t.max.y - t.offset.y = size ∧ t.max.z - t.offset.z = size := by
    rw [h.off, h.max]
    refine ⟨?_, ?_, ?_⟩ <;> simp <;> ring
  unfold addS add
  congr 1
  congr 1
  funext n
  exact addS_like _ n k size _ _ _ h.size_pos h.wf (like _ _ _ e.1) (like _ _ _ e.2.1) (like _ _ _ e.2.2)

theorem containsS_inf {t : Octree} {p : FVec} (h : (p.x = .pinf ∨ p.x = .ninf) ∨ (p.y = .pinf ∨ p.y = .ninf) ∨
    (p.z = .pinf ∨ p.z = .ninf)) : t.containsS p = false := by
  unfold containsS
  rcases h with (h | h) | (h | h) | (h | h) <;> simp [h, Fl.lt]

theorem containsS_standIn {k : ℕ} {size : ℝ} {t : Octree} (h : Good k size t) {p : FVec}
    (hp : ¬ ((p.x = .pinf ∨ p.x = .ninf) ∨ (p.y = .pinf ∨ p.y = .ninf) ∨ (p.z = .pinf ∨ p.z = .ninf))) :
    t.containsS p = t.contains ⟨standIn t.offset.x t.max.x p.x, standIn t.offset.y t.max.y p.y,
      standIn t.offset.z t.max.z p.z⟩ := by
  obtain ⟨x, y, z⟩ := p
  push Not at hp
  obtain ⟨⟨x1, x2⟩, ⟨y1, y2⟩, z1, z2⟩ := hp
  simp only at x1 x2 y1 y2 z1 z2
  have hs := h.size_pos
  have e : t.offset.x < t.max.x ∧ t.offset.y < t.max.y ∧ t.offset.z < t.max.z := by
    rw [h.off, h.max]
    refine ⟨?_, ?_, ?_⟩ <;> simp <;> linarith
  have side : ∀ (lo hi : ℝ) (x : Fl), lo < hi → x ≠ .pinf → x ≠ .ninf →
      (x.lt (.fin lo) = true ↔ standIn lo hi x < lo) ∧ (Fl.lt (.fin hi) x = true ↔ standIn lo hi x > hi) ∧
      (x.sub (.fin lo) = .fin (standIn lo hi x - lo) ∨ (x.sub (.fin lo) = .nan ∧ standIn lo hi x - lo = 0)) := by
    intro lo hi x hlo h1 h2
    rcases x with a | _ | _ | _
    · simp [standIn]
    · exact absurd rfl h1
    · exact absurd rfl h2
    · simp [standIn, hlo.le]
  obtain ⟨a1, a2, a3⟩ := side _ _ x e.1 x1 x2
  obtain ⟨b1, b2, b3⟩ := side _ _ y e.2.1 y1 y2
  obtain ⟨c1, c2, c3⟩ := side _ _ z e.2.2 z1 z2
  unfold containsS contains
  simp only [Bool.or_eq_true, a1, a2, b1, b2, c1, c2, or_assoc]
  congr 1
  exact containsS_like _ k size _ _ hs h.wf a3 b3 c3

end Octree

end Geo
