import Verif.Lemmas.LaserRangeFinderUse
import Verif.Lemmas.Composite

/-!
# Lemmas about slicing triangles with the plane of the laser range finder
-/

namespace Geo

open Spec

theorem onSeg_symm {p q r : Vec2} : OnSeg p q r ↔ OnSeg q p r := by
  constructor <;>
  · rintro ⟨t, h0, h1, hx, hy⟩
    exact ⟨1 - t, by linarith, by linarith, by rw [hx]; ring, by rw [hy]; ring⟩

theorem section_swap {p1 p2 p3 : Vec2} {z1 z2 z3 : ℝ} {q : Vec2} :
    InSection p1 p2 p3 z1 z2 z3 q ↔ InSection p1 p3 p2 z1 z3 z2 q := by
  constructor <;>
  · rintro ⟨a, b, c, h1, h2, h3, h4, h5, h6, h7⟩
    exact ⟨a, c, b, h1, h3, h2, by linarith, by linarith, by linarith, by linarith⟩

theorem section_rotate {p1 p2 p3 : Vec2} {z1 z2 z3 : ℝ} {q : Vec2} :
    InSection p1 p2 p3 z1 z2 z3 q ↔ InSection p2 p3 p1 z2 z3 z1 q := by
  constructor
  · rintro ⟨a, b, c, h1, h2, h3, h4, h5, h6, h7⟩
    exact ⟨b, c, a, h2, h3, h1, by linarith, by linarith, by linarith, by linarith⟩
  · rintro ⟨a, b, c, h1, h2, h3, h4, h5, h6, h7⟩
    exact ⟨c, a, b, h3, h1, h2, by linarith, by linarith, by linarith, by linarith⟩

/-- Apex on one side, the other corners on the other. -/
def Apex (zA zB zC : ℝ) : Prop := (zA < 0 ∧ 0 ≤ zB ∧ 0 ≤ zC) ∨ (0 ≤ zA ∧ zB < 0 ∧ zC < 0)

theorem Apex.swap {zA zB zC : ℝ} (h : Apex zA zB zC) : Apex zA zC zB := by unfold Apex at *; tauto

theorem section_aux {A B C q : Vec2} {a b c : ℝ} (ha : 0 ≤ a) (hb : 0 ≤ b) (hc : 0 ≤ c) (hab : 0 < a + b)
    (hac : 0 < a + c) :
    (∃ α β γ : ℝ, 0 ≤ α ∧ 0 ≤ β ∧ 0 ≤ γ ∧ α + β + γ = 1 ∧ α * a = β * b + γ * c ∧
      q.x = α * A.x + β * B.x + γ * C.x ∧ q.y = α * A.y + β * B.y + γ * C.y) ↔
    OnSeg ((A * b + B * a) / (a + b)) ((A * c + C * a) / (a + c)) q := by
  constructor
  · rintro ⟨α, β, γ, h1, h2, h3, h4, h5, hx, hy⟩
    rcases ha.lt_or_eq with h | h
    · have k : γ * (a + c) / a + β * (a + b) / a = 1 := by
        field_simp
        linear_combination -h5 + a * h4
      have k1 : 0 ≤ γ * (a + c) / a := by positivity
      have k2 : 0 ≤ β * (a + b) / a := by positivity
      refine ⟨γ * (a + c) / a, k1, by linarith, ?_, ?_⟩
      · rw [hx]
        simp only [Vec2.div_x, Vec2.add_x, Vec2.mul_x]
        have e1 : 1 - γ * (a + c) / a = β * (a + b) / a := by linarith
        have e2 : (A.x * b + B.x * a) / (a + b) + γ * (a + c) / a * ((A.x * c + C.x * a) / (a + c) -
          (A.x * b + B.x * a) / (a + b)) = (1 - γ * (a + c) / a) * ((A.x * b + B.x * a) / (a + b)) +
          γ * (a + c) / a * ((A.x * c + C.x * a) / (a + c)) := by ring
        rw [e2, e1]
        field_simp
        linear_combination A.x * h5
      · rw [hy]
        simp only [Vec2.div_y, Vec2.add_y, Vec2.mul_y]
        have e1 : 1 - γ * (a + c) / a = β * (a + b) / a := by linarith
        have e2 : (A.y * b + B.y * a) / (a + b) + γ * (a + c) / a * ((A.y * c + C.y * a) / (a + c) -
          (A.y * b + B.y * a) / (a + b)) = (1 - γ * (a + c) / a) * ((A.y * b + B.y * a) / (a + b)) +
          γ * (a + c) / a * ((A.y * c + C.y * a) / (a + c)) := by ring
        rw [e2, e1]
        field_simp
        linear_combination A.y * h5
    · subst h
      have hb' : 0 < b := by linarith
      have hc' : 0 < c := by linarith
      have m1 := mul_nonneg h2 hb
      have m2 := mul_nonneg h3 hc
      have b0 : β = 0 := (mul_eq_zero.1 (by linarith : β * b = 0)).resolve_right hb'.ne'
      have c0 : γ = 0 := (mul_eq_zero.1 (by linarith : γ * c = 0)).resolve_right hc'.ne'
      have a1 : α = 1 := by linarith
      subst b0 c0 a1
      refine ⟨0, le_rfl, zero_le_one, ?_, ?_⟩
      · rw [hx]; simp [hb'.ne']
      · rw [hy]; simp [hb'.ne']
  · rintro ⟨t, h0, h1, hx, hy⟩
    have n1 := hab.ne'
    have n2 := hac.ne'
    refine ⟨(1 - t) * (b / (a + b)) + t * (c / (a + c)), (1 - t) * (a / (a + b)), t * (a / (a + c)), ?_, ?_, ?_, ?_, ?_, ?_, ?_⟩
    · have := div_nonneg hb hab.le
      have := div_nonneg hc hac.le
      have : 0 ≤ 1 - t := by linarith
      positivity
    · exact mul_nonneg (by linarith) (div_nonneg ha hab.le)
    · exact mul_nonneg h0 (div_nonneg ha hac.le)
    · field_simp; ring
    · field_simp
    · rw [hx]
      simp only [Vec2.div_x, Vec2.add_x, Vec2.mul_x]
      field_simp; ring
    · rw [hy]
      simp only [Vec2.div_y, Vec2.add_y, Vec2.mul_y]
      field_simp; ring

theorem Apex.pos {zA zB zC : ℝ} (h : Apex zA zB zC) : 0 < |zA| + |zB| ∧ 0 < |zA| + |zC| := by
  rcases h with ⟨h1, h2, h3⟩ | ⟨h1, h2, h3⟩
  · have := abs_pos.2 h1.ne
    have := abs_nonneg zB
    have := abs_nonneg zC
    constructor <;> linarith
  · have := abs_pos.2 h2.ne
    have := abs_pos.2 h3.ne
    have := abs_nonneg zA
    constructor <;> linarith

theorem Apex.section {zA zB zC : ℝ} (h : Apex zA zB zC) {A B C q : Vec2} :
    InSection A B C zA zB zC q ↔ OnSeg (LRF.cut A B zA zB) (LRF.cut A C zA zC) q := by
  unfold LRF.cut
  rw [← section_aux (abs_nonneg zA) (abs_nonneg zB) (abs_nonneg zC) h.pos.1 h.pos.2]
  unfold InSection
  have e : ∀ a b c : ℝ, a * zA + b * zB + c * zC = 0 ↔ a * |zA| = b * |zB| + c * |zC| := by
    intro a b c
    rcases h with ⟨h1, h2, h3⟩ | ⟨h1, h2, h3⟩
    · rw [abs_of_neg h1, abs_of_nonneg h2, abs_of_nonneg h3]
      constructor <;> intro <;> linarith
    · rw [abs_of_nonneg h1, abs_of_neg h2, abs_of_neg h3]
      constructor <;> intro <;> linarith
  simp only [e]

theorem Apex.edge {zA zB zC : ℝ} (h : Apex zA zB zC) (A B : Vec2) :
    OnEdge A B zA zB (LRF.cut A B zA zB) := by
  obtain ⟨h1, _⟩ := h.pos
  refine ⟨|zA| / (|zA| + |zB|), div_nonneg (abs_nonneg _) h1.le, ?_, ⟨?_, ?_⟩, ?_⟩
  · rw [div_le_one h1]; linarith [abs_nonneg zB]
  · simp only [LRF.cut, Vec2.div_x, Vec2.add_x, Vec2.mul_x]; field_simp; ring
  · simp only [LRF.cut, Vec2.div_y, Vec2.add_y, Vec2.mul_y]; field_simp; ring
  · have e : |zB| * zA + |zA| * zB = 0 := by
      rcases h with ⟨h1, h2, h3⟩ | ⟨h1, h2, h3⟩
      · rw [abs_of_neg h1, abs_of_nonneg h2]; ring
      · rw [abs_of_nonneg h1, abs_of_neg h2]; ring
    field_simp
    linear_combination e

theorem onEdge_symm {p q r : Vec2} {zp zq : ℝ} (h : OnEdge p q zp zq r) : OnEdge q p zq zp r := by
  obtain ⟨t, h0, h1, ⟨hx, hy⟩, hz⟩ := h
  exact ⟨1 - t, by linarith, by linarith, ⟨by rw [hx]; ring, by rw [hy]; ring⟩, by linarith⟩

/-- The direction of the segment for the apex cases: from the cut with `B` to the cut with `C`. -/
theorem Apex.facing {zA zB zC : ℝ} (h : Apex zA zB zC) (A B C : Vec2) :
    ∃ k : ℝ, (0 < zA → 0 < k) ∧ (zA = 0 → k = 0) ∧ (zA < 0 → k < 0) ∧
      (LRF.cut A B zA zB).x - (LRF.cut A C zA zC).x = k * ((zB - zA) * (C.x - A.x) - (B.x - A.x) * (zC - zA)) ∧
      (LRF.cut A B zA zB).y - (LRF.cut A C zA zC).y = -k * ((B.y - A.y) * (zC - zA) - (zB - zA) * (C.y - A.y)) := by
  obtain ⟨n1, n2⟩ := h.pos
  refine ⟨zA / ((|zA| + |zB|) * (|zA| + |zC|)), fun hz => div_pos hz (mul_pos n1 n2), fun hz => by rw [hz, zero_div],
    fun hz => div_neg_of_neg_of_pos hz (mul_pos n1 n2), ?_, ?_⟩
  · simp only [LRF.cut, Vec2.div_x, Vec2.add_x, Vec2.mul_x]
    rcases h with ⟨h1, h2, h3⟩ | ⟨h1, h2, h3⟩
    · rw [abs_of_neg h1, abs_of_nonneg h2, abs_of_nonneg h3] at *
      field_simp
      ring
    · rw [abs_of_nonneg h1, abs_of_neg h2, abs_of_neg h3] at *
      field_simp
      ring
  · simp only [LRF.cut, Vec2.div_y, Vec2.add_y, Vec2.mul_y]
    rcases h with ⟨h1, h2, h3⟩ | ⟨h1, h2, h3⟩
    · rw [abs_of_neg h1, abs_of_nonneg h2, abs_of_nonneg h3] at *
      field_simp
      ring
    · rw [abs_of_nonneg h1, abs_of_neg h2, abs_of_neg h3] at *
      field_simp
      ring

/-- The cases of the slice. -/
theorem slice_cases (p1 p2 p3 : Vec2) (z1 z2 z3 : ℝ) :
    (LRF.slice p1 p2 p3 z1 z2 z3 = none ∧ ((z1 < 0 ∧ z2 < 0 ∧ z3 < 0) ∨ (0 ≤ z1 ∧ 0 ≤ z2 ∧ 0 ≤ z3))) ∨
    (Apex z1 z2 z3 ∧ LRF.slice p1 p2 p3 z1 z2 z3 = if z2 < 0 then some (LRF.cut p1 p3 z1 z3, LRF.cut p1 p2 z1 z2)
      else some (LRF.cut p1 p2 z1 z2, LRF.cut p1 p3 z1 z3)) ∨
    (Apex z2 z3 z1 ∧ LRF.slice p1 p2 p3 z1 z2 z3 = if z3 < 0 then some (LRF.cut p2 p1 z2 z1, LRF.cut p2 p3 z2 z3)
      else some (LRF.cut p2 p3 z2 z3, LRF.cut p2 p1 z2 z1)) ∨
    (Apex z3 z1 z2 ∧ LRF.slice p1 p2 p3 z1 z2 z3 = if z1 < 0 then some (LRF.cut p3 p2 z3 z2, LRF.cut p3 p1 z3 z1)
      else some (LRF.cut p3 p1 z3 z1, LRF.cut p3 p2 z3 z2)) := by
  unfold LRF.slice Apex
  by_cases h1 : z1 < 0 <;> by_cases h2 : z2 < 0 <;> by_cases h3 : z3 < 0 <;> simp [h1, h2, h3] <;>
    (push Not at *; simp_all) 

theorem slice_rotate (p1 p2 p3 : Vec2) (z1 z2 z3 : ℝ) :
    LRF.slice p2 p3 p1 z2 z3 z1 = LRF.slice p1 p2 p3 z1 z2 z3 := by
  unfold LRF.slice
  by_cases h1 : z1 < 0 <;> by_cases h2 : z2 < 0 <;> by_cases h3 : z3 < 0 <;> simp [h1, h2, h3]

theorem slice_swap (p1 p2 p3 : Vec2) (z1 z2 z3 : ℝ) :
    LRF.slice p1 p3 p2 z1 z3 z2 = (LRF.slice p1 p2 p3 z1 z2 z3).map Prod.swap := by
  unfold LRF.slice
  by_cases h1 : z1 < 0 <;> by_cases h2 : z2 < 0 <;> by_cases h3 : z3 < 0 <;> simp [h1, h2, h3]

/-! ## Posed vertices -/

theorem height_eq (T : Transform3) (p : Vec3) : LRF.height T p = (T.apply p).z := by
  simp [LRF.height, Transform3.apply, Mat3.mulVec, Mat3.getRow, Mat3.get, Vec3.dot]

theorem planar_eq (T : Transform3) (p : Vec3) : LRF.planar T p = ⟨(T.apply p).x, (T.apply p).y⟩ := by
  simp [LRF.planar, Transform3.apply, Mat3.mulVec, Mat3.getRow, Mat3.get, Vec3.dot]

theorem posed_dist {T : Transform3} (h : Rigid T) {p : Vec3} {R : ℝ} (hR : 0 ≤ R) (hp : Spec.dist p ⟨0, 0, 0⟩ ≤ R) :
    distSq (T.apply p) T.t ≤ R ^ 2 := by
  have e : T.apply ⟨0, 0, 0⟩ = T.t := by
    ext <;> simp [Transform3.apply, Mat3.mulVec]
  rw [← e, rigid_apply_sq h]
  unfold Spec.dist at hp
  exact (Real.sqrt_le_left hR).1 hp

/-- A posed vertex is on the same side as the origin of the mesh if that is farther from the plane than the radius. -/
theorem posed_side {T : Transform3} {p : Vec3} {R : ℝ} (hR : 0 ≤ R) (hd : distSq (T.apply p) T.t ≤ R ^ 2)
    (hz : |T.t.z| > R) : (T.t.z < 0 → LRF.height T p < 0) ∧ (0 < T.t.z → 0 < LRF.height T p) := by
  rw [height_eq]
  have : ((T.apply p).z - T.t.z) ^ 2 ≤ R ^ 2 := by
    unfold distSq at hd
    nlinarith [sq_nonneg ((T.apply p).x - T.t.x), sq_nonneg ((T.apply p).y - T.t.y)]
  have := abs_le_of_sq_le_sq' this hR
  constructor <;> intro hs
  · rw [abs_of_neg hs] at hz; linarith
  · rw [abs_of_pos hs] at hz; linarith

/-- A combination of points within `R` of `t` is not closer to the origin than `|t| - R`. -/
theorem far_combination {t X a b c : Vec3} {R D α β γ : ℝ} (hR : 0 ≤ R) (ha : distSq a t ≤ R ^ 2)
    (hb : distSq b t ≤ R ^ 2) (hc : distSq c t ≤ R ^ 2) (h1 : 0 ≤ α) (h2 : 0 ≤ β) (h3 : 0 ≤ γ) (h4 : α + β + γ = 1)
    (hx : X.x = α * a.x + β * b.x + γ * c.x) (hy : X.y = α * a.y + β * b.y + γ * c.y)
    (hz : X.z = α * a.z + β * b.z + γ * c.z) (hD : 0 ≤ D) (hfar : Real.sqrt t.length2 - R > D) :
    D ^ 2 < X.x ^ 2 + X.y ^ 2 + X.z ^ 2 := by
  obtain ⟨n, hn⟩ : ∃ n, n = Real.sqrt t.length2 := ⟨_, rfl⟩
  have hn0 : 0 ≤ n := hn ▸ Real.sqrt_nonneg _
  have hn2 : n ^ 2 = t.x ^ 2 + t.y ^ 2 + t.z ^ 2 := by
    rw [hn, Real.sq_sqrt (Mesh.length2_nonneg t)]
    unfold Vec3.length2
    ring
  rw [← hn] at hfar
  have npos : 0 < n := by linarith
  have cs : ∀ u : Vec3, distSq u t ≤ R ^ 2 → -(R * n) ≤ (u.x - t.x) * t.x + (u.y - t.y) * t.y + (u.z - t.z) * t.z := by
    intro u hu
    unfold distSq at hu
    have : ((u.x - t.x) * t.x + (u.y - t.y) * t.y + (u.z - t.z) * t.z) ^ 2 ≤ (R * n) ^ 2 := by
      have k1 : ((u.x - t.x) * t.x + (u.y - t.y) * t.y + (u.z - t.z) * t.z) ^ 2 ≤
          ((u.x - t.x) ^ 2 + (u.y - t.y) ^ 2 + (u.z - t.z) ^ 2) * (t.x ^ 2 + t.y ^ 2 + t.z ^ 2) := by
        generalize u.x - t.x = p
        generalize u.y - t.y = q
        generalize u.z - t.z = r
        nlinarith [sq_nonneg (p * t.y - q * t.x), sq_nonneg (p * t.z - r * t.x), sq_nonneg (q * t.z - r * t.y)]
      rw [← hn2] at k1
      refine k1.trans ?_
      rw [mul_pow]
      exact mul_le_mul_of_nonneg_right hu (sq_nonneg n)
    exact (abs_le_of_sq_le_sq' this (mul_nonneg hR hn0)).1
  have k : n * (n - R) ≤ X.x * t.x + X.y * t.y + X.z * t.z := by
    have e : X.x * t.x + X.y * t.y + X.z * t.z = α * ((a.x - t.x) * t.x + (a.y - t.y) * t.y + (a.z - t.z) * t.z) +
        β * ((b.x - t.x) * t.x + (b.y - t.y) * t.y + (b.z - t.z) * t.z) +
        γ * ((c.x - t.x) * t.x + (c.y - t.y) * t.y + (c.z - t.z) * t.z) + n ^ 2 := by
      rw [hx, hy, hz, hn2]
      linear_combination (t.x ^ 2 + t.y ^ 2 + t.z ^ 2) * h4
    have m1 := mul_le_mul_of_nonneg_left (cs a ha) h1
    have m2 := mul_le_mul_of_nonneg_left (cs b hb) h2
    have m3 := mul_le_mul_of_nonneg_left (cs c hc) h3
    have m4 : α * -(R * n) + β * -(R * n) + γ * -(R * n) = -(R * n) := by linear_combination -(R * n) * h4
    rw [e]
    nlinarith
  have k2 : n * D < X.x * t.x + X.y * t.y + X.z * t.z := lt_of_lt_of_le (mul_lt_mul_of_pos_left hfar npos) k
  have k3 : (X.x * t.x + X.y * t.y + X.z * t.z) ^ 2 ≤ (X.x ^ 2 + X.y ^ 2 + X.z ^ 2) * n ^ 2 := by
    rw [hn2]
    nlinarith [sq_nonneg (X.x * t.y - X.y * t.x), sq_nonneg (X.x * t.z - X.z * t.x), sq_nonneg (X.y * t.z - X.z * t.y)]
  have k4 : (n * D) ^ 2 < (X.x * t.x + X.y * t.y + X.z * t.z) ^ 2 :=
    pow_lt_pow_left₀ k2 (mul_nonneg hn0 hD) two_ne_zero
  have k5 : D ^ 2 * n ^ 2 < (X.x ^ 2 + X.y ^ 2 + X.z ^ 2) * n ^ 2 := by
    rw [mul_pow, mul_comm] at k4
    linarith
  exact lt_of_mul_lt_mul_right k5 (sq_nonneg n)

/-- If every sliced segment is omitted, so is the mesh. -/
theorem renderTriangles_none (l : LRF) (T : Transform3) (ps : List Vec3) (res : RenderResult)
    (hall : ∀ a ∈ ps, ∀ b ∈ ps, ∀ c ∈ ps, ∀ q1 q2,
      LRF.slice (LRF.planar T a) (LRF.planar T b) (LRF.planar T c) (LRF.height T a) (LRF.height T b) (LRF.height T c) =
        some (q1, q2) → RenderResult.renderLine l res q1 q2 = .ok res) :
    ∀ ts : List TriI, Valid ps ts → LRF.renderTriangles l T ps ts res = .ok res
  | [], _ => rfl
  | t :: ts, hv => by
    obtain ⟨v1, v2, v3⟩ := hv t (by simp)
    have ih := renderTriangles_none l T ps res hall ts (fun x hx => hv x (by simp [hx]))
    simp only [LRF.renderTriangles, vget_lt v1, vget_lt v2, vget_lt v3, bind, Except.bind]
    split
    · exact ih
    · rename_i q1 q2 hs
      simp only [hall _ (List.getElem_mem v1) _ (List.getElem_mem v2) _ (List.getElem_mem v3) q1 q2 hs]
      exact ih

/-- The slice as a set. -/
theorem slice_section {p1 p2 p3 q1 q2 : Vec2} {z1 z2 z3 : ℝ} (h : LRF.slice p1 p2 p3 z1 z2 z3 = some (q1, q2)) (q : Vec2) :
    OnSeg q1 q2 q ↔ InSection p1 p2 p3 z1 z2 z3 q := by
  rcases slice_cases p1 p2 p3 z1 z2 z3 with ⟨hn, _⟩ | ⟨ha, hs⟩ | ⟨ha, hs⟩ | ⟨ha, hs⟩
  · rw [hn] at h; cases h
  all_goals
    rw [h] at hs
    split_ifs at hs <;> simp only [Option.some.injEq, Prod.mk.injEq] at hs <;> obtain ⟨rfl, rfl⟩ := hs
  · rw [ha.section, onSeg_symm]
  · rw [ha.section]
  · rw [section_rotate, ha.section, onSeg_symm]
  · rw [section_rotate, ha.section]
  · rw [← section_rotate, ha.section, onSeg_symm]
  · rw [← section_rotate, ha.section]

/-- The early returns omit nothing. -/
theorem skips_lossless {l : LRF} {m : Mesh} {T : Transform3} (hT : Rigid T) (hm : GoodMesh m) (hR : 0 < l.rangeMax)
    (hs : l.skips T m.getMaxRadius.2 = true) (res : RenderResult) :
    LRF.renderTriangles l T m.points m.tris res = .ok res := by
  obtain ⟨⟨ops, hops⟩, hv⟩ := hm
  have hco := Mesh.coherent_run Mesh.coherent_new hops
  have hrad : IsRadius m.points m.getMaxRadius.2 := by
    rw [(Mesh.getMaxRadius_ok hco).1]
    exact Mesh.sqMax_isRadius _
  generalize m.getMaxRadius.2 = R at hs hrad
  unfold LRF.skips at hs
  obtain ⟨hR0, hc⟩ := of_decide_eq_true hs
  have hd : ∀ p ∈ m.points, distSq (T.apply p) T.t ≤ R ^ 2 := fun p hp => posed_dist hT hR0.le (hrad.1 p hp)
  refine renderTriangles_none l T m.points res ?_ m.tris hv
  intro a ha b hb c hc' q1 q2 hsl
  rcases hc with hz | ⟨_, hfar⟩
  · exfalso
    have sa := posed_side hR0.le (hd a ha) hz
    have sb := posed_side hR0.le (hd b hb) hz
    have sc := posed_side hR0.le (hd c hc') hz
    have ht : T.t.z ≠ 0 := by
      intro h0
      rw [h0, abs_zero] at hz
      linarith
    rcases slice_cases (LRF.planar T a) (LRF.planar T b) (LRF.planar T c) (LRF.height T a) (LRF.height T b)
      (LRF.height T c) with ⟨hn, _⟩ | ⟨hap, _⟩ | ⟨hap, _⟩ | ⟨hap, _⟩
    · rw [hn] at hsl; cases hsl
    all_goals
      rcases lt_or_gt_of_ne ht with h0 | h0
      · have := sa.1 h0
        have := sb.1 h0
        have := sc.1 h0
        rcases hap with ⟨_, _, _⟩ | ⟨_, _, _⟩ <;> linarith
      · have := sa.2 h0
        have := sb.2 h0
        have := sc.2 h0
        rcases hap with ⟨_, _, _⟩ | ⟨_, _, _⟩ <;> linarith
  · by_cases hz : (q2 - q1).length2 = 0
    · exact renderLine_skip res (.inr (.inr (.inl hz)))
    · refine renderLine_skip res (.inr (.inr (.inr ⟨hR, ?_⟩)))
      obtain ⟨⟨q, hq, hqe⟩, _⟩ := distanceSq_least hz
      rw [hqe]
      obtain ⟨α, β, γ, h1, h2, h3, h4, h5, hx, hy⟩ := (slice_section hsl q).1 hq
      rw [height_eq, height_eq, height_eq] at h5
      rw [planar_eq, planar_eq, planar_eq] at hx hy
      have := far_combination (X := ⟨q.x, q.y, 0⟩) hR0.le (hd a ha) (hd b hb) (hd c hc') h1 h2 h3 h4 hx hy h5.symm hR.le hfar
      simp only at this
      nlinarith

end Geo
