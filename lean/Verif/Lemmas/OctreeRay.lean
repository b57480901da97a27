import Verif.Lemmas.Octree

/-!
# Helper lemmas for casting and tracing rays through an octree
-/

namespace Geo

open Spec

namespace OctNode

/-- Unit vector. -/
def Unit3 (u : Vec3) : Prop := u.x ^ 2 + u.y ^ 2 + u.z ^ 2 = 1

theorem Unit3.normalized {u : Vec3} (h : Unit3 u) : u.normalized = u :=
  unitAlong_normalized ⟨h, 1, by norm_num, by ring, by ring, by ring⟩

theorem Unit3.neg {u : Vec3} (h : Unit3 u) : Unit3 (-u) := by
  unfold Unit3 at *
  simp only [Vec3.neg_x, Vec3.neg_y, Vec3.neg_z]
  linarith

/-- Closed cell in local coordinates. -/
def Near (res : ℝ) (c : ℕ × ℕ × ℕ) (p : Vec3) : Prop :=
  (c.1 * res ≤ p.x ∧ p.x ≤ (c.1 + 1) * res) ∧ (c.2.1 * res ≤ p.y ∧ p.y ≤ (c.2.1 + 1) * res) ∧
    (c.2.2 * res ≤ p.z ∧ p.z ≤ (c.2.2 + 1) * res)

/-- Open cell in local coordinates. -/
def Inside (res : ℝ) (c : ℕ × ℕ × ℕ) (p : Vec3) : Prop :=
  (c.1 * res < p.x ∧ p.x < (c.1 + 1) * res) ∧ (c.2.1 * res < p.y ∧ p.y < (c.2.1 + 1) * res) ∧
    (c.2.2 * res < p.z ∧ p.z < (c.2.2 + 1) * res)

/-- The octant of a cube of size `s` as a closed box. -/
def InOct (s : ℝ) (b : Bool × Bool × Bool) (p : Vec3) : Prop :=
  ((if b.1 then s / 2 else 0) ≤ p.x ∧ p.x ≤ (if b.1 then s / 2 else 0) + s / 2) ∧
  ((if b.2.1 then s / 2 else 0) ≤ p.y ∧ p.y ≤ (if b.2.1 then s / 2 else 0) + s / 2) ∧
  ((if b.2.2 then s / 2 else 0) ≤ p.z ∧ p.z ≤ (if b.2.2 then s / 2 else 0) + s / 2)

/-- Closed cube. -/
def InCube (s : ℝ) (p : Vec3) : Prop :=
  (0 ≤ p.x ∧ p.x ≤ s) ∧ (0 ≤ p.y ∧ p.y ≤ s) ∧ (0 ≤ p.z ∧ p.z ≤ s)

theorem not_outside {s : ℝ} {p : Vec3} : ¬ Outside s p ↔ InCube s p := by
  unfold Outside InCube
  push Not
  constructor
  · rintro ⟨a, b, c, d, e, f⟩; exact ⟨⟨a, d⟩, ⟨b, e⟩, ⟨c, f⟩⟩
  · rintro ⟨⟨a, d⟩, ⟨b, e⟩, ⟨c, f⟩⟩; exact ⟨a, b, c, d, e, f⟩

/-- The octant chosen for a point. -/
noncomputable def octOf (s : ℝ) (p : Vec3) : Bool × Bool × Bool :=
  (decide (p.x ≥ s / 2), decide (p.y ≥ s / 2), decide (p.z ≥ s / 2))

theorem inOct_octOf {s : ℝ} {p : Vec3} (h : InCube s p) : InOct s (octOf s p) p := by
  obtain ⟨⟨a, d⟩, ⟨b, e⟩, ⟨c, f⟩⟩ := h
  have key : ∀ x : ℝ, 0 ≤ x → x ≤ s → (if decide (x ≥ s / 2) = true then s / 2 else 0) ≤ x ∧
      x ≤ (if decide (x ≥ s / 2) = true then s / 2 else 0) + s / 2 := by
    intro x h0 h1
    by_cases h : x ≥ s / 2
    · rw [if_pos (by simpa using h)]; constructor <;> linarith
    · rw [if_neg (by simpa using h)]; constructor <;> linarith
  exact ⟨key _ a d, key _ b e, key _ c f⟩

theorem inOct_shift {s : ℝ} {b : Bool × Bool × Bool} {p : Vec3} :
    InOct s b p ↔ InCube (s / 2) (p - shift s b.1 b.2.1 b.2.2) := by
  unfold InOct InCube shift
  simp only [Vec3.sub_x, Vec3.sub_y, Vec3.sub_z, sub_nonneg, sub_le_iff_le_add']

theorem near_up {k : ℕ} {res : ℝ} {b : Bool × Bool × Bool} {c : ℕ × ℕ × ℕ} {p : Vec3} :
    Near res (up k b c) p ↔ Near res c (p - shift (res * 2 ^ (k + 1)) b.1 b.2.1 b.2.2) := by
  have e : res * 2 ^ (k + 1) / 2 = res * 2 ^ k := by rw [pow_succ]; ring
  have key : ∀ (b : Bool) (c : ℕ) (x : ℝ), (((b.toNat * 2 ^ k + c : ℕ) : ℝ) * res ≤ x ∧
      x ≤ (((b.toNat * 2 ^ k + c : ℕ) : ℝ) + 1) * res) ↔
      (c * res ≤ x - (if b then res * 2 ^ k else 0) ∧ x - (if b then res * 2 ^ k else 0) ≤ (c + 1) * res) := by
    intro b c x
    cases b
    · simp
    · simp only [Bool.toNat_true, one_mul, Nat.cast_add, Nat.cast_pow, Nat.cast_ofNat, if_true]
      constructor <;> rintro ⟨h1, h2⟩ <;> constructor <;> linarith
  simp only [Near, up, shift, Vec3.sub_x, Vec3.sub_y, Vec3.sub_z, e, key]

theorem inside_up {k : ℕ} {res : ℝ} {b : Bool × Bool × Bool} {c : ℕ × ℕ × ℕ} {p : Vec3} :
    Inside res (up k b c) p ↔ Inside res c (p - shift (res * 2 ^ (k + 1)) b.1 b.2.1 b.2.2) := by
  have e : res * 2 ^ (k + 1) / 2 = res * 2 ^ k := by rw [pow_succ]; ring
  have key : ∀ (b : Bool) (c : ℕ) (x : ℝ), (((b.toNat * 2 ^ k + c : ℕ) : ℝ) * res < x ∧
      x < (((b.toNat * 2 ^ k + c : ℕ) : ℝ) + 1) * res) ↔
      (c * res < x - (if b then res * 2 ^ k else 0) ∧ x - (if b then res * 2 ^ k else 0) < (c + 1) * res) := by
    intro b c x
    cases b
    · simp
    · simp only [Bool.toNat_true, one_mul, Nat.cast_add, Nat.cast_pow, Nat.cast_ofNat, if_true]
      constructor <;> rintro ⟨h1, h2⟩ <;> constructor <;> linarith
  simp only [Inside, up, shift, Vec3.sub_x, Vec3.sub_y, Vec3.sub_z, e, key]

/-- A point inside a cell of one octant lies in no other closed octant. -/
theorem inside_oct {k : ℕ} {res : ℝ} (hres : 0 < res) {b b' : Bool × Bool × Bool} {c : ℕ × ℕ × ℕ} {p : Vec3}
    (hc : c.1 < 2 ^ k ∧ c.2.1 < 2 ^ k ∧ c.2.2 < 2 ^ k) (h : Inside res (up k b c) p)
    (h' : InOct (res * 2 ^ (k + 1)) b' p) : b = b' := by
  have e : res * 2 ^ (k + 1) / 2 = res * 2 ^ k := by rw [pow_succ]; ring
  unfold InOct at h'
  rw [e] at h'
  have key : ∀ (b b' : Bool) (c : ℕ) (x : ℝ), c < 2 ^ k → (((b.toNat * 2 ^ k + c : ℕ) : ℝ) * res < x ∧
      x < (((b.toNat * 2 ^ k + c : ℕ) : ℝ) + 1) * res) → ((if b' then res * 2 ^ k else 0) ≤ x ∧
        x ≤ (if b' then res * 2 ^ k else 0) + res * 2 ^ k) → b = b' := by
    intro b b' c x hc h h'
    have hc' : ((c:ℝ) + 1) ≤ 2 ^ k := by exact_mod_cast hc
    have h1 := mul_le_mul_of_nonneg_right hc' hres.le
    have h0 : 0 ≤ (c:ℝ) * res := by positivity
    cases b <;> cases b' <;> simp at h h' ⊢ <;> linarith
  obtain ⟨b1, b2, b3⟩ := b
  obtain ⟨d1, d2, d3⟩ := b'
  obtain ⟨h1, h2, h3⟩ := h
  obtain ⟨g1, g2, g3⟩ := h'
  exact Prod.ext (key _ _ _ _ hc.1 h1 g1) (Prod.ext (key _ _ _ _ hc.2.1 h2 g2) (key _ _ _ _ hc.2.2 h3 g3))

theorem Near.cube {k : ℕ} {res : ℝ} (hres : 0 < res) {c : ℕ × ℕ × ℕ} {p : Vec3}
    (hc : c.1 < 2 ^ k ∧ c.2.1 < 2 ^ k ∧ c.2.2 < 2 ^ k) (h : Near res c p) : InCube (res * 2 ^ k) p := by
  have key : ∀ (c : ℕ) (x : ℝ), c < 2 ^ k → (c * res ≤ x ∧ x ≤ (c + 1) * res) → 0 ≤ x ∧ x ≤ res * 2 ^ k := by
    intro c x hc h
    have hc' : ((c:ℝ) + 1) ≤ 2 ^ k := by exact_mod_cast hc
    have h1 := mul_le_mul_of_nonneg_right hc' hres.le
    have h0 : 0 ≤ (c:ℝ) * res := by positivity
    constructor <;> linarith
  exact ⟨key _ _ hc.1 h.1, key _ _ hc.2.1 h.2.1, key _ _ hc.2.2 h.2.2⟩

theorem Inside.near {res : ℝ} {c : ℕ × ℕ × ℕ} {p : Vec3} (h : Inside res c p) : Near res c p :=
  ⟨⟨h.1.1.le, h.1.2.le⟩, ⟨h.2.1.1.le, h.2.1.2.le⟩, ⟨h.2.2.1.le, h.2.2.2.le⟩⟩

/-! ## Leaving an octant -/

theorem exit_axis {lo hi o u : ℝ} (h1 : lo ≤ o) (h2 : o ≤ hi) :
    slabLo lo hi o u ≤ 0 ∧ 0 ≤ slabHi lo hi o u ∧
      ∀ t, slabLo lo hi o u ≤ t → t ≤ 0 → lo ≤ o + t * u ∧ o + t * u ≤ hi := by
  rcases lt_or_ge |u| 1e-9 with hu | hu
  · obtain ⟨a, b⟩ := slab_zero (lo := lo) (hi := hi) (o := o) hu
    rw [a, b]
    refine ⟨le_rfl, le_rfl, fun t ht ht' => ?_⟩
    obtain rfl : t = 0 := le_antisymm ht' ht
    constructor <;> linarith
  · have h0 := (slab_mem (lo := lo) (hi := hi) (o := o) (t := 0) hu).2 (by constructor <;> linarith)
    refine ⟨h0.1, h0.2, fun t ht ht' => ?_⟩
    exact (slab_mem hu).1 ⟨ht, ht'.trans h0.2⟩

/-- For an origin in the box the out-parameter is always written. -/
theorem inside_written (b : Box) (o d : Vec3) (t0 t1 d0 : ℝ) (h : InBox b.lo b.hi o) :
    (b.intersectRay (Ray.new o d) t0 t1 d0).2 =
      max (slabLo b.lo.z b.hi.z o.z d.normalized.z) (max (slabLo b.lo.y b.hi.y o.y d.normalized.y)
        (slabLo b.lo.x b.hi.x o.x d.normalized.x)) := by
  obtain ⟨x1, x2, y1, y2, z1, z2⟩ := h
  obtain ⟨ax, ax', -⟩ := exit_axis (u := d.normalized.x) x1 x2
  obtain ⟨ay, ay', -⟩ := exit_axis (u := d.normalized.y) y1 y2
  obtain ⟨az, az', -⟩ := exit_axis (u := d.normalized.z) z1 z2
  rw [intersectRay_eq]
  simp only
  generalize slabLo b.lo.x b.hi.x o.x d.normalized.x = a1 at *
  generalize slabHi b.lo.x b.hi.x o.x d.normalized.x = a2 at *
  generalize slabLo b.lo.y b.hi.y o.y d.normalized.y = b1 at *
  generalize slabHi b.lo.y b.hi.y o.y d.normalized.y = b2 at *
  generalize slabLo b.lo.z b.hi.z o.z d.normalized.z = c1 at *
  generalize slabHi b.lo.z b.hi.z o.z d.normalized.z = c2 at *
  rw [if_neg (by push Not; constructor <;> linarith), if_neg]
  push Not
  exact ⟨(max_le ay ax).trans az', az.trans (le_min ay' ax')⟩

/-- What `exitDist` computes: the out-parameter is always written, is not positive, and up to that distance
the ray stays in the octant. -/
theorem exit_spec {s : ℝ} {b : Bool × Bool × Bool} {o u : Vec3} (hu : Unit3 u) (ho : InOct s b o)
    (range : ℝ) :
    exitDist s b.1 b.2.1 b.2.2 o u range ≤ 0 ∧
    ∀ t, 0 ≤ t → t ≤ -exitDist s b.1 b.2.1 b.2.2 o u range → InOct s b (along o u t) := by
  obtain ⟨⟨x1, x2⟩, ⟨y1, y2⟩, ⟨z1, z2⟩⟩ := ho
  obtain ⟨ax, ax', ax''⟩ := exit_axis (u := -u.x) x1 x2
  obtain ⟨ay, ay', ay''⟩ := exit_axis (u := -u.y) y1 y2
  obtain ⟨az, az', az''⟩ := exit_axis (u := -u.z) z1 z2
  have hex : exitDist s b.1 b.2.1 b.2.2 o u range =
      max (slabLo (if b.2.2 then s / 2 else 0) ((if b.2.2 then s / 2 else 0) + s / 2) o.z (-u.z))
        (max (slabLo (if b.2.1 then s / 2 else 0) ((if b.2.1 then s / 2 else 0) + s / 2) o.y (-u.y))
          (slabLo (if b.1 then s / 2 else 0) ((if b.1 then s / 2 else 0) + s / 2) o.x (-u.x))) := by
    unfold exitDist
    simp only
    rw [inside_written _ _ _ _ _ _ (show InBox _ _ _ from ⟨x1, x2, y1, y2, z1, z2⟩), hu.neg.normalized]
    rfl
  rw [hex]
  refine ⟨max_le az (max_le ay ax), fun t h0 ht => ?_⟩
  have hz := (le_max_left _ _).trans (le_neg_of_le_neg ht)
  have hyx := (le_max_right _ _).trans (le_neg_of_le_neg ht)
  have hy := (le_max_left _ _).trans hyx
  have hx := (le_max_right _ _).trans hyx
  have e : ∀ u : ℝ, -t * -u = t * u := fun u => by ring
  have k1 := ax'' (-t) hx (by linarith)
  have k2 := ay'' (-t) hy (by linarith)
  have k3 := az'' (-t) hz (by linarith)
  rw [e] at k1 k2 k3
  exact ⟨k1, k2, k3⟩

theorem along_sub (o u d : Vec3) (t : ℝ) : along (o - d) u t = along o u t - d := by
  unfold along
  ext <;> simp <;> ring

theorem along_add (o u : Vec3) (s t : ℝ) : along (along o u s) u t = along o u (s + t) := by
  unfold along
  ext <;> simp <;> ring

theorem add_smul_along (o u : Vec3) (t : ℝ) : o + t * u = along o u t := by
  unfold along
  ext <;> simp <;> ring

theorem cube_convex {s a b t : ℝ} {o u : Vec3} (ha : InCube s (along o u a)) (hb : InCube s (along o u b))
    (h1 : a ≤ t) (h2 : t ≤ b) : InCube s (along o u t) := by
  have key : ∀ x v : ℝ, (0 ≤ x + a * v ∧ x + a * v ≤ s) → (0 ≤ x + b * v ∧ x + b * v ≤ s) →
      0 ≤ x + t * v ∧ x + t * v ≤ s := by
    intro x v ⟨p1, p2⟩ ⟨q1, q2⟩
    rcases le_total 0 v with hv | hv
    · have e1 := mul_le_mul_of_nonneg_right h1 hv
      have e2 := mul_le_mul_of_nonneg_right h2 hv
      constructor <;> linarith
    · have e1 := mul_le_mul_of_nonpos_right h1 hv
      have e2 := mul_le_mul_of_nonpos_right h2 hv
      constructor <;> linarith
  exact ⟨key _ _ ha.1 hb.1, key _ _ ha.2.1 hb.2.1, key _ _ ha.2.2 hb.2.2⟩

/-! ## Tracing -/

/-- The ray passes through the interior of cell `c` for parameters between `a` and `b`, more than a tenth
of the resolution. -/
def Thick (res : ℝ) (o u : Vec3) (c : ℕ × ℕ × ℕ) (a b : ℝ) : Prop :=
  a + res * 0.1 < b ∧ ∀ t, a < t → t < b → Inside res c (along o u t)

theorem Thick.up {k : ℕ} {res : ℝ} {o u : Vec3} {b : Bool × Bool × Bool} {c : ℕ × ℕ × ℕ} {x y : ℝ} :
    Thick res o u (up k b c) x y ↔
      Thick res (o - shift (res * 2 ^ (k + 1)) b.1 b.2.1 b.2.2) u c x y := by
  unfold Thick
  simp only [inside_up, along_sub]

/-- One step of the march: the cell is in the octant of the current point, or the step does not pass it. -/
theorem march {k : ℕ} {res : ℝ} (hres : 0 < res) {o u : Vec3} (hu : Unit3 u) {t0 range : ℝ}
    (hin : InCube (res * 2 ^ (k + 1)) (along o u t0)) {b : Bool × Bool × Bool} {c : ℕ × ℕ × ℕ} {x y : ℝ}
    (hc : c.1 < 2 ^ k ∧ c.2.1 < 2 ^ k ∧ c.2.2 < 2 ^ k) (hth : Thick res o u (up k b c) x y)
    (ht : t0 ≤ x + res * 0.1) (hb : b ≠ octOf (res * 2 ^ (k + 1)) (along o u t0)) :
    let d := octOf (res * 2 ^ (k + 1)) (along o u t0)
    t0 - exitDist (res * 2 ^ (k + 1)) d.1 d.2.1 d.2.2 (along o u t0) u range + res * 0.1 ≤ x + res * 0.1 ∧
    InCube (res * 2 ^ (k + 1)) (along o u
      (t0 - exitDist (res * 2 ^ (k + 1)) d.1 d.2.1 d.2.2 (along o u t0) u range + res * 0.1)) := by
  intro d
  have hoct := inOct_octOf hin
  obtain ⟨e1, e2⟩ := exit_spec hu hoct range
  set ex := exitDist (res * 2 ^ (k + 1)) d.1 d.2.1 d.2.2 (along o u t0) u range with hex
  obtain ⟨hxy, hin'⟩ := hth
  have hr : 0 < res * 0.1 := by positivity
  have h0 : t0 ≤ x := by
    by_contra h
    push Not at h
    exact hb (inside_oct hres hc (hin' t0 h (by linarith)) hoct)
  have h1 : t0 - ex ≤ x := by
    by_contra h
    push Not at h
    obtain ⟨t, ht1, ht2⟩ := exists_between (lt_min h (by linarith : x < y))
    have ht3 := lt_of_lt_of_le ht2 (min_le_left _ _)
    have ht4 := lt_of_lt_of_le ht2 (min_le_right _ _)
    have := e2 (t - t0) (by linarith) (by linarith)
    rw [along_add, add_sub_cancel] at this
    exact hb (inside_oct hres hc (hin' t ht1 ht4) this)
  refine ⟨by linarith, ?_⟩
  obtain ⟨t, ht1, ht2⟩ := exists_between hxy
  have hcube : InCube (res * 2 ^ (k + 1)) (along o u t) := by
    refine (hin' t (by linarith) ht2).near.cube hres ?_
    unfold OctNode.up
    have : ∀ (b : Bool) (c : ℕ), c < 2 ^ k → b.toNat * 2 ^ k + c < 2 ^ (k + 1) := by
      intro b c hc
      rw [pow_succ]
      cases b <;> simp <;> omega
    exact ⟨this _ _ hc.1, this _ _ hc.2.1, this _ _ hc.2.2⟩
  exact cube_convex hin hcube (by linarith) (by linarith)

/-- The parameter of the next point of the march. -/
noncomputable def nextT (res s : ℝ) (o u : Vec3) (t0 t1 : ℝ) : ℝ :=
  t0 - exitDist s (octOf s (along o u t0)).1 (octOf s (along o u t0)).2.1 (octOf s (along o u t0)).2.2
    (along o u t0) u (t1 - t0) + res * 0.1

/-- The octant of the current point. -/
noncomputable def octIdx (s : ℝ) (o u : Vec3) (t0 : ℝ) : Fin 8 :=
  index (octOf s (along o u t0)).1 (octOf s (along o u t0)).2.1 (octOf s (along o u t0)).2.2

/-- The origin of the octant of the current point. -/
noncomputable def octShift (s : ℝ) (o u : Vec3) (t0 : ℝ) : Vec3 :=
  shift s (octOf s (along o u t0)).1 (octOf s (along o u t0)).2.1 (octOf s (along o u t0)).2.2

theorem raytrace_done {res : ℝ} {f : ℕ} {s : ℝ} {oc : Bool} {ch : Fin 8 → OctNode} {o u : Vec3} {t0 t1 : ℝ}
    (h : t1 < t0 ∨ ¬ InCube s (along o u t0)) :
    raytrace res (f + 1) (.node s oc ch) o u t0 t1 = .ok (.node s oc ch) := by
  rw [← not_outside, not_not] at h
  unfold raytrace
  by_cases h1 : t1 < t0
  · rw [if_pos h1]
  · rw [if_neg h1, add_smul_along, if_pos (h.resolve_left h1)]

theorem raytrace_null {res : ℝ} {f : ℕ} {s : ℝ} {oc : Bool} {ch : Fin 8 → OctNode} {o u : Vec3} {t0 t1 : ℝ}
    (h1 : ¬ t1 < t0) (h2 : InCube s (along o u t0)) (hn : ch (octIdx s o u t0) = .null) :
    raytrace res (f + 1) (.node s oc ch) o u t0 t1 =
      raytrace res f (.node s false ch) o u (nextT res s o u t0 t1) t1 := by
  rw [← not_outside] at h2
  conv_lhs => unfold raytrace
  rw [if_neg h1, add_smul_along, if_neg h2]
  unfold octIdx octOf at hn
  unfold nextT octOf
  generalize along o u t0 = q at *
  simp only at hn ⊢
  rw [hn]

theorem raytrace_child {res : ℝ} {f : ℕ} {s : ℝ} {oc : Bool} {ch : Fin 8 → OctNode} {o u : Vec3} {t0 t1 : ℝ}
    (h1 : ¬ t1 < t0) (h2 : InCube s (along o u t0)) (hn : ch (octIdx s o u t0) ≠ .null) :
    raytrace res (f + 1) (.node s oc ch) o u t0 t1 =
      match raytrace res f (ch (octIdx s o u t0)) (o - octShift s o u t0) u t0 t1 with
      | .error e => .error e
      | .ok c => raytrace res f (.node s false (Function.update ch (octIdx s o u t0) c)) o u
          (nextT res s o u t0 t1) t1 := by
  rw [← not_outside] at h2
  conv_lhs => unfold raytrace
  rw [if_neg h1, add_smul_along, if_neg h2]
  unfold octIdx octOf at hn
  unfold octIdx octShift nextT octOf
  simp only [bind, Except.bind, pure, Except.pure]
  generalize index _ _ _ = i at *
  cases hc : ch i with
  | null => exact absurd hc hn
  | node s' oc' ch' =>
    generalize raytrace res f (.node s' oc' ch') _ u t0 t1 = x
    cases x <;> rfl

theorem raytrace_steady (res : ℝ) (n : OctNode) (o u : Vec3) (t0 t1 : ℝ) :
    Steady fun f => raytrace res f n o u t0 t1 := by
  intro f
  simp only
  induction f generalizing n o t0 with
  | zero => intro h; exact absurd rfl h
  | succ f ih =>
    intro h
    cases n with
    | null => rfl
    | node s oc ch =>
      by_cases h0 : t1 < t0 ∨ ¬ InCube s (along o u t0)
      · rw [raytrace_done h0, raytrace_done h0]
      · push Not at h0
        obtain ⟨h1, h2⟩ := h0
        rw [← not_lt] at h1
        by_cases hn : ch (octIdx s o u t0) = .null
        · rw [raytrace_null h1 h2 hn] at h
          rw [raytrace_null h1 h2 hn, raytrace_null h1 h2 hn]
          exact ih _ _ _ h
        · rw [raytrace_child h1 h2 hn] at h
          rw [raytrace_child h1 h2 hn, raytrace_child h1 h2 hn]
          have hc := ih (ch (octIdx s o u t0)) (o - octShift s o u t0) t0
          cases hr : raytrace res f (ch (octIdx s o u t0)) (o - octShift s o u t0) u t0 t1 with
          | error e =>
            rw [hr] at h
            rw [hc (by rw [hr]; exact h), hr]
          | ok c' =>
            rw [hr] at h
            rw [hc (by rw [hr]; simp), hr]
            exact ih _ _ _ h

theorem nextT_ge {res s : ℝ} {o u : Vec3} {t0 : ℝ} (hu : Unit3 u) (h : InCube s (along o u t0)) (t1 : ℝ) :
    t0 + res * 0.1 ≤ nextT res s o u t0 t1 := by
  have := (exit_spec hu (inOct_octOf h) (t1 - t0)).1
  unfold nextT
  linarith

/-- Tracing terminates: the fuel needed is the depth plus the number of steps. -/
theorem raytrace_total {res : ℝ} {u : Vec3} (hu : Unit3 u) (t1 : ℝ) (f : ℕ) :
    ∀ (k m : ℕ) (n : OctNode) (o : Vec3) (t0 : ℝ), k + m + 1 ≤ f → n ≠ .null → WF k (res * 2 ^ k) n →
      t1 - t0 < m * (res * 0.1) → ∃ n', raytrace res f n o u t0 t1 = .ok n' ∧ n' ≠ .null ∧
        WF k (res * 2 ^ k) n' := by
  induction f with
  | zero => intro k m n o t0 h; omega
  | succ f ih =>
    intro k m n o t0 hf hn hw hm
    cases n with
    | null => exact absurd rfl hn
    | node s oc ch =>
      by_cases h0 : t1 < t0 ∨ ¬ InCube s (along o u t0)
      · exact ⟨_, raytrace_done h0, hn, hw⟩
      push Not at h0
      obtain ⟨h1, h2⟩ := h0
      rw [← not_lt] at h1
      have hnext := nextT_ge (res := res) hu h2 t1
      have hm1 : m ≠ 0 := by
        rintro rfl
        push_cast at hm
        linarith
      obtain ⟨m, rfl⟩ : ∃ m', m = m' + 1 := ⟨m - 1, by omega⟩
      have hm' : t1 - nextT res s o u t0 t1 < m * (res * 0.1) := by
        push_cast at hm
        linarith
      by_cases hc : ch (octIdx s o u t0) = .null
      · rw [raytrace_null h1 h2 hc]
        refine ih k m _ o _ (by omega) (by simp) ?_ hm'
        cases k with
        | zero => exact ⟨hw.1, hw.2⟩
        | succ k => exact ⟨hw.1, rfl, hw.2.2⟩
      · cases k with
        | zero => exact absurd (hw.2 _) hc
        | succ k =>
          have e : res * 2 ^ (k + 1) / 2 = res * 2 ^ k := by rw [pow_succ]; ring
          obtain ⟨hs, ho, hch⟩ := hw
          rw [e] at hch
          obtain ⟨c', hr, hne, hw'⟩ := ih k (m + 1) (ch (octIdx s o u t0)) (o - octShift s o u t0) t0
            (by omega) hc (hch _) hm
          rw [raytrace_child h1 h2 hc, hr]
          refine ih (k + 1) m _ o _ (by omega) (by simp) ⟨hs, rfl, ?_⟩ hm'
          intro i
          rw [e]
          by_cases hi : i = octIdx s o u t0
          · subst hi; rw [Function.update_self]; exact hw'
          · rw [Function.update_of_ne hi]; exact hch i

/-- What tracing does to the cells. -/
theorem raytrace_spec {res : ℝ} (hres : 0 < res) {u : Vec3} (hu : Unit3 u) (t1 : ℝ) (f : ℕ) :
    ∀ (k : ℕ) (n n' : OctNode) (o : Vec3) (t0 : ℝ), WF k (res * 2 ^ k) n →
      raytrace res f n o u t0 t1 = .ok n' →
      (n' ≠ .null ∧ WF k (res * 2 ^ k) n') ∧ (∀ c, Occ k n' c → Occ k n c) ∧
      (∀ c, Occ k n c → ¬ Occ k n' c → ∃ t, t0 ≤ t ∧ t ≤ t1 ∧ Near res c (along o u t)) ∧
      (∀ c x y, Occ k n c → Thick res o u c x y → y ≤ t1 → t0 ≤ x + res * 0.1 →
        InCube (res * 2 ^ k) (along o u t0) → ¬ Occ k n' c) := by
  induction f with
  | zero => intro k n n' o t0 _ h; exact absurd h (by simp [raytrace])
  | succ f ih =>
    intro k n n' o t0 hw h
    have hr : 0 < res * 0.1 := by positivity
    cases n with
    | null => exact absurd h (by simp [raytrace])
    | node s oc ch =>
      have hs : s = res * 2 ^ k := by cases k <;> exact hw.1
      by_cases h0 : t1 < t0 ∨ ¬ InCube s (along o u t0)
      · rw [raytrace_done h0] at h
        simp only [Except.ok.injEq] at h
        subst h
        refine ⟨⟨by simp, hw⟩, fun c h => h, fun c h h' => absurd h h', ?_⟩
        intro c x y hc hth hy ht hin
        exfalso
        rcases h0 with h0 | h0
        · have := hth.1; linarith
        · exact h0 (hs ▸ hin)
      push Not at h0
      obtain ⟨h1, h2⟩ := h0
      have h1' := h1
      rw [← not_lt] at h1
      have hnext := nextT_ge (res := res) hu h2 t1
      cases k with
      | zero =>
        rw [raytrace_null h1 h2 (hw.2 _)] at h
        obtain ⟨i1, i2, i3, i4⟩ := ih 0 _ n' o _ (show WF 0 _ (.node s false ch) from ⟨hw.1, hw.2⟩) h
        have hno : ∀ c, ¬ Occ 0 n' c := fun c hc => by have := i2 c hc; cases this.1
        refine ⟨i1, fun c hc => absurd hc (hno c), ?_, fun c x y _ _ _ _ _ => hno c⟩
        rintro c ⟨-, rfl⟩ -
        refine ⟨t0, le_rfl, h1', ?_⟩
        rw [hs] at h2
        simpa [Near, InCube] using h2
      | succ k =>
        have e : res * 2 ^ (k + 1) / 2 = res * 2 ^ k := by rw [pow_succ]; ring
        have hs2 : s / 2 = res * 2 ^ k := by rw [hs, e]
        obtain ⟨-, ho, hch⟩ := hw
        rw [e] at hch
        set b := octOf s (along o u t0) with hb
        have hoct : InOct s b (along o u t0) := inOct_octOf h2
        by_cases hc0 : ch (octIdx s o u t0) = .null
        · rw [raytrace_null h1 h2 hc0] at h
          obtain ⟨i1, i2, i3, i4⟩ := ih (k + 1) _ n' o _
            (show WF (k + 1) _ (.node s false ch) from ⟨hs, rfl, by rw [e]; exact hch⟩) h
          refine ⟨i1, fun c hc => i2 c hc, ?_, ?_⟩
          · intro c hc hc'
            obtain ⟨t, ht, ht', hn⟩ := i3 c hc hc'
            exact ⟨t, by linarith, ht', hn⟩
          · intro c x y hc hth hy ht hin
            obtain ⟨b', c', rfl, hc'⟩ := occ_succ.1 hc
            have hne : b' ≠ b := by
              rintro rfl
              rw [show ch (index b.1 b.2.1 b.2.2) = .null from hc0] at hc'
              exact not_occ_null hc'
            have hm := march hres hu (range := t1 - t0) hin hc'.lt hth ht (by rw [← hs]; exact hne)
            simp only [← hs] at hm
            exact i4 _ x y hc hth hy hm.1 (by rw [← hs]; exact hm.2)
        · rw [raytrace_child h1 h2 hc0] at h
          cases hr' : raytrace res f (ch (octIdx s o u t0)) (o - octShift s o u t0) u t0 t1 with
          | error e => rw [hr'] at h; cases h
          | ok c0 =>
            rw [hr'] at h
            simp only at h
            obtain ⟨j1, j2, j3, j4⟩ := ih k _ c0 _ _ (hch _) hr'
            have hw2 : WF (k + 1) (res * 2 ^ (k + 1))
                (.node s false (Function.update ch (octIdx s o u t0) c0)) := by
              refine ⟨hs, rfl, fun i => ?_⟩
              rw [e]
              by_cases hi : i = octIdx s o u t0
              · subst hi; rw [Function.update_self]; exact j1.2
              · rw [Function.update_of_ne hi]; exact hch i
            obtain ⟨i1, i2, i3, i4⟩ := ih (k + 1) _ n' o _ hw2 h
            have hupd : ∀ b', b' ≠ b → Function.update ch (octIdx s o u t0) c0 (index b'.1 b'.2.1 b'.2.2) =
                ch (index b'.1 b'.2.1 b'.2.2) := fun b' hi =>
              Function.update_of_ne (fun h => hi (index_inj
                (show index b'.1 b'.2.1 b'.2.2 = index b.1 b.2.1 b.2.2 from h))) _ _
            have hocc : ∀ c, Occ (k + 1) (.node s false (Function.update ch (octIdx s o u t0) c0)) c →
                Occ (k + 1) (.node s oc ch) c := by
              intro c hc
              obtain ⟨b', c', rfl, hc'⟩ := occ_succ.1 hc
              refine occ_succ.2 ⟨b', c', rfl, ?_⟩
              by_cases hi : b' = b
              · subst hi
                rw [show index b.1 b.2.1 b.2.2 = octIdx s o u t0 from rfl, Function.update_self] at hc'
                exact j2 _ hc'
              · rwa [hupd b' hi] at hc'
            refine ⟨i1, fun c hc => hocc c (i2 c hc), ?_, ?_⟩
            · intro c hc hc'
              by_cases hmid : Occ (k + 1) (.node s false (Function.update ch (octIdx s o u t0) c0)) c
              · obtain ⟨t, ht, ht', hn⟩ := i3 c hmid hc'
                exact ⟨t, by linarith, ht', hn⟩
              · obtain ⟨b', c', rfl, hc''⟩ := occ_succ.1 hc
                have hi : b' = b := by
                  by_contra hi
                  refine hmid (occ_succ.2 ⟨b', c', rfl, ?_⟩)
                  rwa [hupd b' hi]
                subst hi
                obtain ⟨t, ht, ht', hn⟩ := j3 c' hc'' (fun hcc => hmid (occ_succ.2 ⟨b, c', rfl, by
                  rw [show index b.1 b.2.1 b.2.2 = octIdx s o u t0 from rfl, Function.update_self]
                  exact hcc⟩))
                refine ⟨t, ht, ht', near_up.2 ?_⟩
                rw [along_sub] at hn
                rw [← hs]
                exact hn
            · intro c x y hc hth hy ht hin hcn
              obtain ⟨b', c', rfl, hc'⟩ := occ_succ.1 hc
              by_cases hi : b' = b
              · subst hi
                have hmid := i2 _ hcn
                rw [occ_up hc'.lt, show index b.1 b.2.1 b.2.2 = octIdx s o u t0 from rfl,
                  Function.update_self] at hmid
                refine j4 c' x y hc' ?_ hy ht ?_ hmid
                · have := Thick.up.1 hth
                  rw [← hs] at this
                  exact this
                · rw [along_sub, ← hs2]
                  exact inOct_shift.1 hoct
              · have hmid : Occ (k + 1) (.node s false (Function.update ch (octIdx s o u t0) c0)) (up k b' c') := by
                  refine occ_succ.2 ⟨b', c', rfl, ?_⟩
                  rwa [hupd b' hi]
                have hm := march hres hu (range := t1 - t0) hin hc'.lt hth ht (by rw [← hs]; exact hi)
                simp only [← hs] at hm
                exact i4 _ x y hmid hth hy hm.1 (by rw [← hs]; exact hm.2) hcn

/-! ## Casting -/

theorem intersectRay_out {res : ℝ} {f : ℕ} {s : ℝ} {ch : Fin 8 → OctNode} {o u : Vec3} (hu : Unit3 u)
    {t0 t1 d : ℝ} (h : ¬ InCube s (along o u t0)) :
    intersectRay res (f + 1) (.node s false ch) (Ray.new o u) t0 t1 d = .ok (false, d) := by
  rw [← not_outside, not_not] at h
  unfold intersectRay
  rw [if_neg (by simp), show (Ray.new o u).direction = u from hu.normalized,
    show (Ray.new o u).origin = o from rfl, add_smul_along, if_pos h]

theorem intersectRay_null {res : ℝ} {f : ℕ} {s : ℝ} {ch : Fin 8 → OctNode} {o u : Vec3} (hu : Unit3 u)
    {t0 t1 d : ℝ} (h2 : InCube s (along o u t0)) (hn : ch (octIdx s o u t0) = .null) :
    intersectRay res (f + 1) (.node s false ch) (Ray.new o u) t0 t1 d =
      intersectRay res f (.node s false ch) (Ray.new o u) (nextT res s o u t0 t1) t1
        (nextT res s o u t0 t1 - res * 0.1) := by
  rw [← not_outside] at h2
  conv_lhs => unfold intersectRay
  rw [if_neg (by simp), show (Ray.new o u).direction = u from hu.normalized,
    show (Ray.new o u).origin = o from rfl, add_smul_along, if_neg h2]
  unfold octIdx octOf at hn
  unfold nextT octOf
  generalize along o u t0 = q at *
  simp only [add_sub_cancel_right] at hn ⊢
  rw [hn]

theorem intersectRay_child {res : ℝ} {f : ℕ} {s : ℝ} {ch : Fin 8 → OctNode} {o u : Vec3} (hu : Unit3 u)
    {t0 t1 d : ℝ} (h2 : InCube s (along o u t0)) (hn : ch (octIdx s o u t0) ≠ .null) :
    intersectRay res (f + 1) (.node s false ch) (Ray.new o u) t0 t1 d =
      match intersectRay res f (ch (octIdx s o u t0)) (Ray.new (o - octShift s o u t0) u) t0 t1 d with
      | .error e => .error e
      | .ok (true, d') => .ok (true, d')
      | .ok (false, _) => intersectRay res f (.node s false ch) (Ray.new o u) (nextT res s o u t0 t1) t1
        (nextT res s o u t0 t1 - res * 0.1) := by
  rw [← not_outside] at h2
  conv_lhs => unfold intersectRay
  rw [if_neg (by simp), show (Ray.new o u).direction = u from hu.normalized,
    show (Ray.new o u).origin = o from rfl, add_smul_along, if_neg h2]
  unfold octIdx octOf at hn
  unfold octIdx octShift nextT octOf
  simp only [add_sub_cancel_right]
  generalize index _ _ _ = i at *
  cases hc : ch i with
  | null => exact absurd hc hn
  | node s' oc' ch' =>
    generalize intersectRay res f (.node s' oc' ch') _ t0 t1 d = x
    rcases x with e | ⟨_ | _, d'⟩ <;> rfl

theorem intersectRay_occ {res : ℝ} {f : ℕ} {s : ℝ} {ch : Fin 8 → OctNode} {r : Ray}
    {t0 t1 d : ℝ} : intersectRay res (f + 1) (.node s true ch) r t0 t1 d = .ok (true, d) := by
  unfold intersectRay
  simp

theorem intersectRay_steady (res : ℝ) (n : OctNode) (o u : Vec3) (hu : Unit3 u) (t0 t1 d : ℝ) :
    Steady fun f => intersectRay res f n (Ray.new o u) t0 t1 d := by
  intro f
  simp only
  induction f generalizing n o t0 d with
  | zero => intro h; exact absurd rfl h
  | succ f ih =>
    intro h
    cases n with
    | null => rfl
    | node s oc ch =>
      cases oc with
      | true => rw [intersectRay_occ, intersectRay_occ]
      | false =>
        by_cases h2 : InCube s (along o u t0)
        · by_cases hn : ch (octIdx s o u t0) = .null
          · rw [intersectRay_null hu h2 hn] at h
            rw [intersectRay_null hu h2 hn, intersectRay_null hu h2 hn]
            exact ih _ _ _ _ h
          · rw [intersectRay_child hu h2 hn] at h
            rw [intersectRay_child hu h2 hn, intersectRay_child hu h2 hn]
            have hc := ih (ch (octIdx s o u t0)) (o - octShift s o u t0) t0 d
            cases hr : intersectRay res f (ch (octIdx s o u t0)) (Ray.new (o - octShift s o u t0) u) t0 t1 d with
            | error e =>
              rw [hr] at h
              rw [hc (by rw [hr]; exact h), hr]
            | ok x =>
              rw [hr] at h
              rw [hc (by rw [hr]; simp), hr]
              rcases x with ⟨_ | _, d'⟩
              · exact ih _ _ _ _ h
              · rfl
        · rw [intersectRay_out hu h2, intersectRay_out hu h2]

theorem octShift_cube {s : ℝ} {o u : Vec3} {t0 t : ℝ}
    (h : InCube (s / 2) (along (o - octShift s o u t0) u t)) (hs : 0 ≤ s) : InCube s (along o u t) := by
  rw [along_sub] at h
  have := inOct_shift.2 (show InCube (s / 2) (along o u t - shift s (octOf s (along o u t0)).1
    (octOf s (along o u t0)).2.1 (octOf s (along o u t0)).2.2) from h)
  unfold InOct at this
  obtain ⟨h1, h2, h3⟩ := this
  unfold InCube
  refine ⟨?_, ?_, ?_⟩
  · split_ifs at h1 <;> constructor <;> linarith
  · split_ifs at h2 <;> constructor <;> linarith
  · split_ifs at h3 <;> constructor <;> linarith

/-- Casting terminates for a unit direction: beyond parameter `T` the ray is outside the cube. -/
theorem intersectRay_total {res : ℝ} (hres : 0 < res) {u : Vec3} (hu : Unit3 u) (t1 T : ℝ) (f : ℕ) :
    ∀ (k m : ℕ) (n : OctNode) (o : Vec3) (t0 d : ℝ), k + m + 1 ≤ f → n ≠ .null → WF k (res * 2 ^ k) n →
      (∀ t, T < t → ¬ InCube (res * 2 ^ k) (along o u t)) →
      T - t0 < m * (res * 0.1) → ∃ x, intersectRay res f n (Ray.new o u) t0 t1 d = .ok x := by
  induction f with
  | zero => intro k m n o t0 d h; omega
  | succ f ih =>
    intro k m n o t0 d hf hn hw hT hm
    cases n with
    | null => exact absurd rfl hn
    | node s oc ch =>
      have hs : s = res * 2 ^ k := by cases k <;> exact hw.1
      cases oc with
      | true => exact ⟨_, intersectRay_occ⟩
      | false =>
      by_cases h2 : InCube s (along o u t0)
      swap
      · exact ⟨_, intersectRay_out hu h2⟩
      have hnext := nextT_ge (res := res) hu h2 t1
      have htT : t0 ≤ T := by
        by_contra h
        push Not at h
        exact hT t0 h (hs ▸ h2)
      have hm1 : m ≠ 0 := by
        rintro rfl
        push_cast at hm
        linarith
      obtain ⟨m, rfl⟩ : ∃ m', m = m' + 1 := ⟨m - 1, by omega⟩
      have hm' : T - nextT res s o u t0 t1 < m * (res * 0.1) := by
        push_cast at hm
        linarith
      obtain ⟨x, hx⟩ := ih k m (.node s false ch) o (nextT res s o u t0 t1)
        (nextT res s o u t0 t1 - res * 0.1) (by omega) hn hw hT hm'
      by_cases hc : ch (octIdx s o u t0) = .null
      · exact ⟨x, by rw [intersectRay_null hu h2 hc, hx]⟩
      · cases k with
        | zero => exact absurd (hw.2 _) hc
        | succ k =>
          have e : res * 2 ^ (k + 1) / 2 = res * 2 ^ k := by rw [pow_succ]; ring
          obtain ⟨-, ho, hch⟩ := hw
          rw [e] at hch
          obtain ⟨y, hy⟩ := ih k (m + 1) (ch (octIdx s o u t0)) (o - octShift s o u t0) t0 d
            (by omega) hc (hch _) (fun t ht h => hT t ht (by
              rw [← e, ← hs] at h
              rw [← hs]
              exact octShift_cube h (by rw [hs]; positivity))) hm
          rw [intersectRay_child hu h2 hc, hy]
          rcases y with ⟨_ | _, d'⟩
          · exact ⟨x, hx⟩
          · exact ⟨_, rfl⟩

/-- What casting reports. -/
theorem intersectRay_spec {res : ℝ} (hres : 0 < res) {u : Vec3} (hu : Unit3 u) (t1 : ℝ) (f : ℕ) :
    ∀ (k : ℕ) (n : OctNode) (o : Vec3) (t0 d : ℝ) (hit : Bool) (d' : ℝ), WF k (res * 2 ^ k) n →
      intersectRay res f n (Ray.new o u) t0 t1 d = .ok (hit, d') →
      (hit = true → ∃ t c, t0 ≤ t ∧ Occ k n c ∧ (Near res c (along o u t) ∨ (k = 0 ∧ t = t0)) ∧
        ((t = t0 ∧ d' = d) ∨ (t0 + res * 0.1 ≤ t ∧ d' = t - res * 0.1)) ∧
        ∀ c' x y, Occ k n c' → Thick res o u c' x y → t0 ≤ x + res * 0.1 →
          InCube (res * 2 ^ k) (along o u t0) → t ≤ x + res * 0.1) ∧
      (∀ c x y, Occ k n c → Thick res o u c x y → t0 ≤ x + res * 0.1 →
        InCube (res * 2 ^ k) (along o u t0) → hit = true) := by
  induction f with
  | zero => intro k n o t0 d hit d' _ h; exact absurd h (by simp [intersectRay])
  | succ f ih =>
    intro k n o t0 d hit d' hw h
    have hr : 0 < res * 0.1 := by positivity
    cases n with
    | null => exact absurd h (by simp [intersectRay])
    | node s oc ch =>
      have hs : s = res * 2 ^ k := by cases k <;> exact hw.1
      cases oc with
      | true =>
        rw [intersectRay_occ] at h
        simp only [Except.ok.injEq, Prod.mk.injEq] at h
        obtain ⟨rfl, rfl⟩ := h
        cases k with
        | succ k => exact absurd hw.2.1 (by simp)
        | zero =>
          refine ⟨fun _ => ⟨t0, (0, 0, 0), le_rfl, ⟨rfl, rfl⟩, Or.inr ⟨rfl, rfl⟩, Or.inl ⟨rfl, rfl⟩, ?_⟩,
            fun _ _ _ _ _ _ _ => rfl⟩
          intro c' x y _ _ ht _
          exact ht
      | false =>
      by_cases h2 : InCube s (along o u t0)
      swap
      · rw [intersectRay_out hu h2] at h
        simp only [Except.ok.injEq, Prod.mk.injEq] at h
        obtain ⟨rfl, rfl⟩ := h
        exact ⟨fun h => by simp at h, fun c x y _ _ _ hin => absurd (hs ▸ hin) h2⟩
      have hnext := nextT_ge (res := res) hu h2 t1
      cases k with
      | zero =>
        rw [intersectRay_null hu h2 (hw.2 _)] at h
        obtain ⟨i1, i2⟩ := ih 0 _ o _ _ hit d' hw h
        have hno : ∀ c, ¬ Occ 0 (.node s false ch) c := fun c hc => by cases hc.1
        refine ⟨fun ht => ?_, fun c x y hc _ _ _ => absurd hc (hno c)⟩
        obtain ⟨t, c, -, hc, -⟩ := i1 ht
        exact absurd hc (hno c)
      | succ k =>
        have e : res * 2 ^ (k + 1) / 2 = res * 2 ^ k := by rw [pow_succ]; ring
        have hs2 : s / 2 = res * 2 ^ k := by rw [hs, e]
        have hw' := hw
        obtain ⟨-, ho, hch⟩ := hw
        rw [e] at hch
        set b := octOf s (along o u t0) with hb
        have hoct : InOct s b (along o u t0) := inOct_octOf h2
        have hnull : ∀ c, ¬ Occ (k + 1) .null c := fun c => not_occ_null
        -- the remaining march, for cells outside the current octant
        have rest : ∀ (hit : Bool) (d' : ℝ),
            intersectRay res f (.node s false ch) (Ray.new o u) (nextT res s o u t0 t1) t1
              (nextT res s o u t0 t1 - res * 0.1) = .ok (hit, d') →
            (∀ c x y, Occ k (ch (octIdx s o u t0)) c → Thick res (o - octShift s o u t0) u c x y →
              t0 ≤ x + res * 0.1 → False) →
            (hit = true → ∃ t c, t0 ≤ t ∧ Occ (k + 1) (.node s false ch) c ∧
              (Near res c (along o u t) ∨ (k + 1 = 0 ∧ t = t0)) ∧
              ((t = t0 ∧ d' = d) ∨ (t0 + res * 0.1 ≤ t ∧ d' = t - res * 0.1)) ∧
              ∀ c' x y, Occ (k + 1) (.node s false ch) c' → Thick res o u c' x y → t0 ≤ x + res * 0.1 →
                InCube (res * 2 ^ (k + 1)) (along o u t0) → t ≤ x + res * 0.1) ∧
            (∀ c x y, Occ (k + 1) (.node s false ch) c → Thick res o u c x y → t0 ≤ x + res * 0.1 →
              InCube (res * 2 ^ (k + 1)) (along o u t0) → hit = true) := by
          intro hit d' h hfalse
          obtain ⟨i1, i2⟩ := ih (k + 1) _ o _ _ hit d' hw' h
          have step : ∀ c x y, Occ (k + 1) (.node s false ch) c → Thick res o u c x y →
              t0 ≤ x + res * 0.1 → InCube (res * 2 ^ (k + 1)) (along o u t0) →
              nextT res s o u t0 t1 ≤ x + res * 0.1 ∧
              InCube (res * 2 ^ (k + 1)) (along o u (nextT res s o u t0 t1)) := by
            intro c x y hc hth ht hin
            obtain ⟨b', c', rfl, hc'⟩ := occ_succ.1 hc
            have hne : b' ≠ b := by
              rintro rfl
              have := Thick.up.1 hth
              rw [← hs] at this
              exact hfalse c' x y hc' this ht
            have hm := march hres hu (range := t1 - t0) hin hc'.lt hth ht (by rw [← hs]; exact hne)
            simp only [← hs] at hm
            rw [← hs]
            exact hm
          refine ⟨fun ht => ?_, fun c x y hc hth ht hin => ?_⟩
          · obtain ⟨t, c, h1, h2, h3, h4, h5⟩ := i1 ht
            refine ⟨t, c, by linarith, h2, Or.inl (h3.resolve_right (by simp)), Or.inr ?_, ?_⟩
            · rcases h4 with ⟨rfl, rfl⟩ | ⟨h4, rfl⟩
              · exact ⟨hnext, rfl⟩
              · exact ⟨by linarith, rfl⟩
            · intro c' x y hc' hth ht0 hin
              obtain ⟨m1, m2⟩ := step c' x y hc' hth ht0 hin
              exact h5 c' x y hc' hth m1 m2
          · obtain ⟨m1, m2⟩ := step c x y hc hth ht hin
            exact i2 c x y hc hth m1 m2
        by_cases hc0 : ch (octIdx s o u t0) = .null
        · rw [intersectRay_null hu h2 hc0] at h
          refine rest hit d' h ?_
          intro c x y hc
          rw [hc0] at hc
          exact absurd hc not_occ_null
        · rw [intersectRay_child hu h2 hc0] at h
          cases hr' : intersectRay res f (ch (octIdx s o u t0)) (Ray.new (o - octShift s o u t0) u) t0 t1 d with
          | error e => rw [hr'] at h; cases h
          | ok z =>
            rw [hr'] at h
            rcases z with ⟨hz, dz⟩
            obtain ⟨j1, j2⟩ := ih k _ _ _ _ hz dz (hch _) hr'
            have hin' : InCube (res * 2 ^ k) (along (o - octShift s o u t0) u t0) := by
              rw [along_sub, ← hs2]
              exact inOct_shift.1 hoct
            cases hz with
            | false =>
              refine rest hit d' h ?_
              intro c x y hc hth ht
              have := j2 c x y hc hth ht hin'
              simp at this
            | true =>
              simp only [Except.ok.injEq, Prod.mk.injEq] at h
              obtain ⟨rfl, rfl⟩ := h
              refine ⟨fun _ => ?_, fun _ _ _ _ _ _ _ => rfl⟩
              obtain ⟨t, c, h1, h2', h3, h4, h5⟩ := j1 rfl
              refine ⟨t, up k b c, h1, occ_succ.2 ⟨b, c, rfl, h2'⟩, Or.inl ?_, h4, ?_⟩
              · rw [near_up, ← hs]
                rcases h3 with h3 | ⟨rfl, rfl⟩
                · rw [along_sub] at h3; exact h3
                · obtain ⟨-, rfl⟩ : c.1 = 0 ∧ c = (0, 0, 0) := by
                    have := h2'.lt
                    obtain ⟨c1, c2, c3⟩ := c
                    simp at this
                    obtain ⟨rfl, rfl, rfl⟩ := this
                    exact ⟨rfl, rfl⟩
                  rw [along_sub, show octShift s o u t = shift s b.1 b.2.1 b.2.2 from rfl] at hin'
                  simpa [Near, InCube] using hin'
              · intro c' x y hc' hth ht hin
                rcases h4 with ⟨rfl, -⟩ | ⟨h4, -⟩
                · exact ht
                · obtain ⟨b', c'', rfl, hc''⟩ := occ_succ.1 hc'
                  by_cases hbb : b' = b
                  · subst hbb
                    have := Thick.up.1 hth
                    rw [← hs] at this
                    exact h5 c'' x y hc'' this ht hin'
                  · obtain ⟨hxy, hth'⟩ := hth
                    by_contra hlt
                    push Not at hlt
                    have hx0 : t0 ≤ x := by
                      by_contra h
                      push Not at h
                      exact hbb (inside_oct hres hc''.lt (hth' t0 h (by linarith)) (hs ▸ hoct))
                    obtain ⟨q, hq1, hq2⟩ := exists_between (lt_min (by linarith : x < t) (by linarith : x < y))
                    have hq3 := lt_of_lt_of_le hq2 (min_le_left _ _)
                    have hq4 := lt_of_lt_of_le hq2 (min_le_right _ _)
                    have hnear : Near res c (along (o - octShift s o u t0) u t) := by
                      rcases h3 with h3 | ⟨-, rfl⟩
                      · exact h3
                      · linarith
                    have hq := cube_convex hin' (hnear.cube hres h2'.lt) (by linarith : t0 ≤ q) hq3.le
                    rw [along_sub, ← hs2] at hq
                    have hqo : InOct s b (along o u q) := inOct_shift.2 hq
                    exact hbb (inside_oct hres hc''.lt (hth' q hq1 hq4) (hs ▸ hqo))

end OctNode

end Geo
