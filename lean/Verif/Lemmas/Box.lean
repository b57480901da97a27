import Verif.Spec.Box
import Verif.Lemmas.Triangle

/-! # Helper lemmas about rays and boxes -/

namespace Geo
open Spec

@[simp] theorem Box.new_lo (lo hi : Vec3) : (Box.new lo hi).lo = lo := rfl
@[simp] theorem Box.new_hi (lo hi : Vec3) : (Box.new lo hi).hi = hi := rfl

/-! ## Slabs -/

theorem slabs {a1 a2 b1 b2 c1 c2 t0 t1 d0 : ℝ} (ha : a1 ≤ a2) (hb : b1 ≤ b2) (hc : c1 ≤ c2)
    (ht : t0 < t1) (res : Bool × ℝ) (hres : res =
      (if a1 > b2 ∨ b1 > a2 then (false, d0) else
        if max b1 a1 > c2 ∨ c1 > min b2 a2 then (false, d0) else
          (@decide (t0 < min c2 (min b2 a2) ∧ max c1 (max b1 a1) < t1) (Classical.propDecidable _),
            max c1 (max b1 a1)))) :
    (res.1 = true ↔ ∃ t, t0 < t ∧ t < t1 ∧ a1 ≤ t ∧ t ≤ a2 ∧ b1 ≤ t ∧ t ≤ b2 ∧ c1 ≤ t ∧ t ≤ c2) ∧
    (res.1 = true → IsLeast {t | a1 ≤ t ∧ t ≤ a2 ∧ b1 ≤ t ∧ t ≤ b2 ∧ c1 ≤ t ∧ t ≤ c2} res.2) := by
  subst hres
  split_ifs with h1 h2
  · constructor
    · simp only [false_iff, not_exists]
      rintro t ⟨_, _, h3, h4, h5, h6, _, _⟩
      rcases h1 with h | h <;> linarith
    · simp
  · constructor
    · simp only [false_iff, not_exists]
      rintro t ⟨_, _, h3, h4, h5, h6, h7, h8⟩
      rcases h2 with h | h
      · rcases lt_max_iff.1 h with h | h <;> linarith
      · rcases min_lt_iff.1 h with h | h <;> linarith
    · simp
  · push Not at h1 h2
    obtain ⟨h3, h4⟩ := h2
    rw [max_le_iff] at h3
    rw [le_min_iff] at h4
    have e : max c1 (max b1 a1) ≤ min c2 (min b2 a2) := by
      simp only [max_le_iff, le_min_iff]
      refine ⟨⟨hc, h3.1, h3.2⟩, ⟨h4.1, hb, h1.1⟩, ⟨h4.2, h1.2, ha⟩⟩
    simp only [decide_eq_true_eq]
    constructor
    · constructor
      · rintro ⟨h5, h6⟩
        rcases le_or_gt (max c1 (max b1 a1)) t0 with h7 | h7
        · obtain ⟨t, u1, u2⟩ := exists_between (lt_min ht h5)
          have := lt_min_iff.1 u2
          refine ⟨t, u1, this.1, ?_⟩
          have h8 := le_trans h7 u1.le
          simp only [max_le_iff] at h8
          have h9 := this.2.le
          simp only [le_min_iff] at h9
          exact ⟨h8.2.2, h9.2.2, h8.2.1, h9.2.1, h8.1, h9.1⟩
        · refine ⟨_, h7, h6, ?_⟩
          simp only [le_min_iff] at e
          exact ⟨by simp, e.2.2, by simp, e.2.1, by simp, e.1⟩
      · rintro ⟨t, u1, u2, u3, u4, u5, u6, u7, u8⟩
        constructor
        · exact lt_of_lt_of_le u1 (le_min u8 (le_min u6 u4))
        · exact lt_of_le_of_lt (max_le u7 (max_le u5 u3)) u2
    · intro _
      constructor
      · simp only [le_min_iff] at e
        exact ⟨by simp, e.2.2, by simp, e.2.1, by simp, e.1⟩
      · rintro t ⟨u3, u4, u5, u6, u7, u8⟩
        exact max_le u7 (max_le u5 u3)

/-- Bounds of the parameter interval of one axis. -/
noncomputable def slabLo (lo hi o u : ℝ) : ℝ :=
  ((if u < 0 then hi else lo) - o) * invComponent u
/-- Bounds of the parameter interval of one axis. -/
noncomputable def slabHi (lo hi o u : ℝ) : ℝ :=
  ((if u < 0 then lo else hi) - o) * invComponent u

theorem slab_mem {lo hi o u t : ℝ} (hu : 1e-9 ≤ |u|) :
    (slabLo lo hi o u ≤ t ∧ t ≤ slabHi lo hi o u) ↔ (lo ≤ o + t * u ∧ o + t * u ≤ hi) := by
  unfold slabLo slabHi invComponent
  rw [if_neg (not_lt.2 hu)]
  have h0 : u ≠ 0 := by rintro rfl; norm_num at hu
  simp only [mul_one_div]
  split_ifs with h
  · rw [div_le_iff_of_neg h, le_div_iff_of_neg h]
    constructor <;> rintro ⟨a, b⟩ <;> constructor <;> linarith
  · have h' : 0 < u := lt_of_le_of_ne (not_lt.1 h) h0.symm
    rw [div_le_iff₀ h', le_div_iff₀ h']
    constructor <;> rintro ⟨a, b⟩ <;> constructor <;> linarith

theorem slab_zero {lo hi o u : ℝ} (hu : |u| < 1e-9) : slabLo lo hi o u = 0 ∧ slabHi lo hi o u = 0 := by
  unfold slabLo slabHi invComponent
  rw [if_pos hu]; simp

theorem slab_le {lo hi o u : ℝ} (h : lo ≤ hi) : slabLo lo hi o u ≤ slabHi lo hi o u := by
  rcases lt_or_ge |u| 1e-9 with hu | hu
  · obtain ⟨a, b⟩ := slab_zero (lo := lo) (hi := hi) (o := o) hu
    rw [a, b]
  · have h0 : u ≠ 0 := by rintro rfl; norm_num at hu
    have h1 : lo ≤ o + ((lo - o) / u) * u ∧ o + ((lo - o) / u) * u ≤ hi := by
      rw [div_mul_cancel₀ _ h0]
      constructor <;> linarith
    obtain ⟨a, b⟩ := (slab_mem hu).2 h1
    linarith

theorem intersectRay_eq (b : Box) (o d : Vec3) (t0 t1 d0 : ℝ) :
    b.intersectRay (Ray.new o d) t0 t1 d0 =
      (let a1 := slabLo b.lo.x b.hi.x o.x d.normalized.x
       let a2 := slabHi b.lo.x b.hi.x o.x d.normalized.x
       let b1 := slabLo b.lo.y b.hi.y o.y d.normalized.y
       let b2 := slabHi b.lo.y b.hi.y o.y d.normalized.y
       let c1 := slabLo b.lo.z b.hi.z o.z d.normalized.z
       let c2 := slabHi b.lo.z b.hi.z o.z d.normalized.z
       if a1 > b2 ∨ b1 > a2 then (false, d0) else
        if max b1 a1 > c2 ∨ c1 > min b2 a2 then (false, d0) else
          (@decide (t0 < min c2 (min b2 a2) ∧ max c1 (max b1 a1) < t1) (Classical.propDecidable _),
            max c1 (max b1 a1))) := by
  have e : ∀ (p : Prop) [Decidable p], (Box.bound b (decide p)) = if p then b.hi else b.lo := by
    intro p _; unfold Box.bound; by_cases hp : p <;> simp [hp]
  have e' : ∀ (p : Prop) [Decidable p], (Box.bound b (!decide p)) = if p then b.lo else b.hi := by
    intro p _; unfold Box.bound; by_cases hp : p <;> simp [hp]
  have fx : ∀ (p : Prop) [Decidable p] (u v : Vec3), (if p then u else v).x = if p then u.x else v.x :=
    fun p _ u v => by split_ifs <;> rfl
  have fy : ∀ (p : Prop) [Decidable p] (u v : Vec3), (if p then u else v).y = if p then u.y else v.y :=
    fun p _ u v => by split_ifs <;> rfl
  have fz : ∀ (p : Prop) [Decidable p] (u v : Vec3), (if p then u else v).z = if p then u.z else v.z :=
    fun p _ u v => by split_ifs <;> rfl
  unfold Box.intersectRay Ray.new slabLo slabHi
  simp only [e, e', fx, fy, fz]
  congr

theorem unitAlong_normalized {d u : Vec3} (h : UnitAlong d u) : d.normalized = u := by
  obtain ⟨h1, l, hl, hx, hy, hz⟩ := h
  have : d.length = l := by
    unfold Vec3.length
    rw [hx, hy, hz, show l * u.x * (l * u.x) + l * u.y * (l * u.y) + l * u.z * (l * u.z) =
      l ^ 2 * (u.x ^ 2 + u.y ^ 2 + u.z ^ 2) by ring, h1, mul_one]
    exact Real.sqrt_sq hl.le
  ext <;> simp only [Vec3.normalized, this] <;> field_simp <;> assumption

/-! ## Closest point -/

theorem closestCoord_spec {lo hi p : ℝ} (h : lo ≤ hi) :
    let q := Box.closestCoord lo hi ((lo + hi) / 2) p
    lo ≤ q ∧ q ≤ hi ∧ ∀ r, lo ≤ r → r ≤ hi → (p - q) ^ 2 ≤ (p - r) ^ 2 := by
  unfold Box.closestCoord
  dsimp only
  split_ifs with h1 h2
  · exact ⟨h1.1.le, h1.2.le, fun r _ _ => by nlinarith [sq_nonneg (p - r)]⟩
  · refine ⟨h, le_rfl, fun r h3 h4 => ?_⟩
    have h5 : hi ≤ p := by
      by_contra hc
      push Not at hc
      exact h1 ⟨by linarith, hc⟩
    nlinarith
  · refine ⟨le_rfl, h, fun r h3 h4 => ?_⟩
    have h5 : p ≤ lo := by
      by_contra hc
      push Not at hc
      exact h1 ⟨hc, by linarith⟩
    nlinarith

/-- Exact test for overlap of closed intervals by centre and half size. -/
theorem interval_overlap {a b c d : ℝ} (h1 : a ≤ b) (h2 : c ≤ d) :
    |(a + b) / 2 - (c + d) / 2| ≤ (b - a) * 0.5 + (d - c) * 0.5 ↔
      ∃ x, a ≤ x ∧ x ≤ b ∧ c ≤ x ∧ x ≤ d := by
  rw [abs_le]
  constructor
  · rintro ⟨h3, h4⟩
    have h5 : a ≤ d := by linarith
    have h6 : c ≤ b := by linarith
    exact ⟨max a c, le_max_left _ _, max_le h1 h6, le_max_right _ _, max_le h5 h2⟩
  · rintro ⟨x, h3, h4, h5, h6⟩
    constructor <;> linarith

/-! ## Mesh of a box -/

theorem generateMesh_points (b : Box) :
    b.generateMesh.lo = b.lo ∧ b.generateMesh.hi = b.hi ∧
    b.generateMesh.mesh.points = b.mesh.points ++ corners8 b.lo b.hi := by
  refine ⟨rfl, rfl, ?_⟩
  simp [Box.generateMesh, Mesh.addPoint, Mesh.addTriangle, Mesh.invalidateCache, corners8]

theorem inBox_corners {lo hi : Vec3} (h : Proper lo hi) : ∀ p ∈ corners8 lo hi, InBox lo hi p := by
  obtain ⟨h1, h2, h3⟩ := h
  intro p hp
  simp only [corners8, List.mem_cons, List.not_mem_nil, or_false] at hp
  rcases hp with rfl | rfl | rfl | rfl | rfl | rfl | rfl | rfl <;>
    exact ⟨by simp [h1], by simp [h1], by simp [h2], by simp [h2], by simp [h3], by simp [h3]⟩

theorem enclosePoints {ps : List Vec3} {b : Box} :
    let r := ps.foldl Box.enclosePoint b
    (∀ p, InBox b.lo b.hi p → InBox r.lo r.hi p) ∧ (∀ p ∈ ps, InBox r.lo r.hi p ∨ ¬ Proper b.lo b.hi) ∧
    (∀ lo hi : Vec3, (∀ p ∈ ps, InBox lo hi p) → lo.x ≤ b.lo.x ∧ lo.y ≤ b.lo.y ∧ lo.z ≤ b.lo.z ∧
        b.hi.x ≤ hi.x ∧ b.hi.y ≤ hi.y ∧ b.hi.z ≤ hi.z →
      lo.x ≤ r.lo.x ∧ lo.y ≤ r.lo.y ∧ lo.z ≤ r.lo.z ∧
        r.hi.x ≤ hi.x ∧ r.hi.y ≤ hi.y ∧ r.hi.z ≤ hi.z) ∧
    (Proper b.lo b.hi → Proper r.lo r.hi) ∧ r.mesh = b.mesh := by
  induction ps generalizing b with
  | nil => simp
  | cons q ps ih =>
    obtain ⟨h1, h2, h3, h4, h5⟩ := ih (b := b.enclosePoint q)
    have hp : Proper b.lo b.hi → Proper (b.enclosePoint q).lo (b.enclosePoint q).hi := by
      rintro ⟨a1, a2, a3⟩
      exact ⟨(min_le_left _ _).trans (a1.trans (le_max_left _ _)),
        (min_le_left _ _).trans (a2.trans (le_max_left _ _)),
        (min_le_left _ _).trans (a3.trans (le_max_left _ _))⟩
    have hin : ∀ p, InBox b.lo b.hi p → InBox (b.enclosePoint q).lo (b.enclosePoint q).hi p := by
      rintro p ⟨a1, a2, a3, a4, a5, a6⟩
      exact ⟨(min_le_left _ _).trans a1, a2.trans (le_max_left _ _), (min_le_left _ _).trans a3,
        a4.trans (le_max_left _ _), (min_le_left _ _).trans a5, a6.trans (le_max_left _ _)⟩
    refine ⟨fun p h => h1 p (hin p h), ?_, ?_, fun h => h4 (hp h), h5⟩
    · intro p hpm
      by_cases hpr : Proper b.lo b.hi
      · left
        rcases List.mem_cons.1 hpm with rfl | hpm
        · apply h1
          exact ⟨min_le_right _ _, le_max_right _ _, min_le_right _ _, le_max_right _ _,
            min_le_right _ _, le_max_right _ _⟩
        · exact (h2 p hpm).resolve_right (fun h => h (hp hpr))
      · right; exact hpr
    · intro lo hi ha hb
      apply h3 lo hi (fun p hp => ha p (by simp [hp]))
      obtain ⟨a1, a2, a3, a4, a5, a6⟩ := ha q (by simp)
      obtain ⟨b1, b2, b3, b4, b5, b6⟩ := hb
      exact ⟨le_min b1 a1, le_min b2 a3, le_min b3 a5, max_le b4 a2, max_le b5 a4, max_le b6 a6⟩

/-- A coordinate of an affine image of a point of a box is between bounds valid for the corners. -/
theorem affine_le {lo hi p : Vec3} (h : InBox lo hi p) (a b c d M : ℝ)
    (hc : ∀ q ∈ corners8 lo hi, a * q.x + b * q.y + c * q.z + d ≤ M) :
    a * p.x + b * p.y + c * p.z + d ≤ M := by
  obtain ⟨h1, h2, h3, h4, h5, h6⟩ := h
  simp only [corners8, List.mem_cons, List.not_mem_nil, or_false, forall_eq_or_imp, forall_eq] at hc
  obtain ⟨c0, c1, c2, c3, c4, c5, c6, c7⟩ := hc
  have hx : a * p.x ≤ max (a * lo.x) (a * hi.x) := by
    rcases le_total 0 a with ha | ha
    · exact le_max_of_le_right (mul_le_mul_of_nonneg_left h2 ha)
    · exact le_max_of_le_left (mul_le_mul_of_nonpos_left h1 ha)
  have hy : b * p.y ≤ max (b * lo.y) (b * hi.y) := by
    rcases le_total 0 b with ha | ha
    · exact le_max_of_le_right (mul_le_mul_of_nonneg_left h4 ha)
    · exact le_max_of_le_left (mul_le_mul_of_nonpos_left h3 ha)
  have hz : c * p.z ≤ max (c * lo.z) (c * hi.z) := by
    rcases le_total 0 c with ha | ha
    · exact le_max_of_le_right (mul_le_mul_of_nonneg_left h6 ha)
    · exact le_max_of_le_left (mul_le_mul_of_nonpos_left h5 ha)
  rcases max_choice (a * lo.x) (a * hi.x) with e1 | e1 <;>
  rcases max_choice (b * lo.y) (b * hi.y) with e2 | e2 <;>
  rcases max_choice (c * lo.z) (c * hi.z) with e3 | e3 <;>
  rw [e1] at hx <;> rw [e2] at hy <;> rw [e3] at hz <;> linarith

theorem affine_ge {lo hi p : Vec3} (h : InBox lo hi p) (a b c d M : ℝ)
    (hc : ∀ q ∈ corners8 lo hi, M ≤ a * q.x + b * q.y + c * q.z + d) :
    M ≤ a * p.x + b * p.y + c * p.z + d := by
  have := affine_le h (-a) (-b) (-c) (-d) (-M) (fun q hq => by have := hc q hq; linarith)
  linarith

/-- The image of a box under an affine map lies in every box containing the images of its corners. -/
theorem apply_inBox {lo hi lo' hi' p : Vec3} (T : Transform3) (h : InBox lo hi p)
    (hc : ∀ q ∈ corners8 lo hi, InBox lo' hi' (T.apply q)) : InBox lo' hi' (T.apply p) := by
  refine ⟨?_, ?_, ?_, ?_, ?_, ?_⟩
  · exact affine_ge h T.R.xx T.R.xy T.R.xz T.t.x lo'.x (fun q hq => (hc q hq).1)
  · exact affine_le h T.R.xx T.R.xy T.R.xz T.t.x hi'.x (fun q hq => (hc q hq).2.1)
  · exact affine_ge h T.R.yx T.R.yy T.R.yz T.t.y lo'.y (fun q hq => (hc q hq).2.2.1)
  · exact affine_le h T.R.yx T.R.yy T.R.yz T.t.y hi'.y (fun q hq => (hc q hq).2.2.2.1)
  · exact affine_ge h T.R.zx T.R.zy T.R.zz T.t.z lo'.z (fun q hq => (hc q hq).2.2.2.2.1)
  · exact affine_le h T.R.zx T.R.zy T.R.zz T.t.z hi'.z (fun q hq => (hc q hq).2.2.2.2.2)

end Geo
