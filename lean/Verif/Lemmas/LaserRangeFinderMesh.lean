import Verif.Lemmas.LaserRangeFinderSlice

/-!
# Rendering whole meshes with the laser range finder
-/

namespace Geo

open Spec

theorem Spec.Improves.refl (r : EReal) : Improves r r := .inl rfl

theorem Spec.Improves.trans {a b c : EReal} (h1 : Improves a b) (h2 : Improves b c) : Improves a c := by
  rcases h2 with rfl | ⟨p2, q2⟩
  · exact h1
  · rcases h1 with rfl | ⟨p1, q1⟩
    · exact .inr ⟨p2, q2⟩
    · have := q2.resolve_left p1.ne'
      exact .inr ⟨p2, q1.imp id this.trans⟩

theorem Spec.Improves.keeps {a b e : EReal} (h : Improves a b) (ha : a ≤ e ∧ a ≠ 0) : b ≤ e ∧ b ≠ 0 := by
  rcases h with rfl | ⟨p, q⟩
  · exact ha
  · exact ⟨(q.resolve_left ha.2).le.trans ha.1, p.ne'⟩

theorem drawn_improves (l : LRF) (p1 s : Vec2) (a b j : ℕ) (r : EReal) : Improves r (drawn l p1 s a b j r) := by
  unfold drawn
  split_ifs
  · cases hh : hit l p1 s j with
    | none => exact .inl rfl
    | some d =>
      simp only [combine]
      split_ifs with hc
      · exact .inr ⟨hit_pos hh, hc⟩
      · exact .inl rfl
  · exact .inl rfl

/-- The raw index of any angle of the turn. -/
theorem raw_any {l : LRF} (h : Fine l) {a : ℝ} (h0 : -Real.pi ≤ a) (h1 : a ≤ Real.pi) :
    ∃ k : ℤ, l.getAngleUpperIndexRaw a = .ok k ∧
      (0 ≤ (a - l.aMin) / spacing l → (a - l.aMin) / spacing l < k ∧ (k : ℝ) ≤ (a - l.aMin) / spacing l + 1) ∧
      ((a - l.aMin) / spacing l < 0 → (a - l.aMin) / spacing l + 1 ≤ k ∧ (k : ℝ) < (a - l.aMin) / spacing l + 2) := by
  have hs := LRF.spacing_pos h.ready
  rcases le_or_gt l.aMin a with ha | ha
  · have hq : 0 ≤ (a - l.aMin) / spacing l := div_nonneg (sub_nonneg.2 ha) hs.le
    refine ⟨_, (LRF.raw_ok h.ready ha (h.index h1)).1, fun _ => ?_, fun hn => absurd hn (not_lt.2 hq)⟩
    push_cast
    exact ⟨Int.lt_floor_add_one _, by linarith [Int.floor_le ((a - l.aMin) / spacing l)]⟩
  · have hq : (a - l.aMin) / spacing l < 0 := div_neg_of_neg_of_pos (by linarith) hs
    rcases lt_or_ge (l.aMin - spacing l) a with hb | hb
    · refine ⟨1, raw_below h hb ha, fun hn => absurd hq (not_lt.2 hn), fun _ => ?_⟩
      have : -1 < (a - l.aMin) / spacing l := by rw [lt_div_iff₀ hs]; linarith
      push_cast
      constructor <;> linarith
    · refine ⟨_, (raw_far_below h h0 hb).1, fun hn => absurd hq (not_lt.2 hn), fun _ => ?_⟩
      push_cast
      have := Int.le_ceil ((a - l.aMin) / spacing l)
      have := Int.ceil_lt_add_one ((a - l.aMin) / spacing l)
      constructor <;> linarith

theorem parts_ok {l : LRF} (h : Fine l) (p1 p2 : Vec2) (res : RenderResult) :
    ∃ o, RenderResult.parts l p1 p2 res = .ok o := by
  have hs := LRF.spacing_pos h.ready
  obtain ⟨m1, M1⟩ := atan2_mem p1.y p1.x
  obtain ⟨m2, M2⟩ := atan2_mem p2.y p2.x
  obtain ⟨k1, e1, u1, v1⟩ := raw_any h m1.le M1
  obtain ⟨k2, e2, u2, v2⟩ := raw_any h m2.le M2
  have key : |(atan2 p1.y p1.x - l.aMin) / spacing l - (atan2 p2.y p2.x - l.aMin) / spacing l| < 2 ^ 31 - 1 := by
    rw [← sub_div, abs_div, abs_of_pos hs, div_lt_iff₀ hs]
    have := h.steps
    rw [abs_lt]
    constructor <;> linarith
  generalize (atan2 p1.y p1.x - l.aMin) / spacing l = x1 at *
  generalize (atan2 p2.y p2.x - l.aMin) / spacing l = x2 at *
  obtain ⟨b1, b2⟩ := abs_lt.1 key
  have hk : |((k1 - k2 : ℤ) : ℝ)| < ((2 ^ 31 : ℤ) : ℝ) := by
    push_cast
    rw [abs_lt]
    rcases le_or_gt 0 x1 with c1 | c1 <;> rcases le_or_gt 0 x2 with c2 | c2 <;>
      [have d1 := u1 c1; have d1 := u1 c1; have d1 := v1 c1; have d1 := v1 c1] <;>
      [have d2 := u2 c2; have d2 := v2 c2; have d2 := u2 c2; have d2 := v2 c2] <;>
      constructor <;> linarith [d1.1, d1.2, d2.1, d2.2]
  have hk' : |k1 - k2| < 2 ^ 31 := by exact_mod_cast hk
  obtain ⟨g1, g2⟩ := abs_lt.1 hk'
  unfold RenderResult.parts LRF.getAngleUpperIndexRaw2
  have hi : intOp (max k1 k2 - min k1 k2) = .ok (max k1 k2 - min k1 k2) := by
    unfold intOp
    rw [if_pos ⟨by omega, by omega⟩]
  simp only [e1, e2, bind, Except.bind, hi]
  split_ifs <;> exact ⟨_, rfl⟩

/-- A line never leaves the tables and only improves ranges. -/
theorem renderLine_any {l : LRF} (h : Fine l) (p1 p2 : Vec2) (res : RenderResult) (hl : res.ranges.length = l.numBeams) :
    ∃ res', RenderResult.renderLine l res p1 p2 = .ok res' ∧ res'.ranges.length = l.numBeams ∧
      ∀ (j : ℕ) old, res.ranges[j]? = some old → ∃ new, res'.ranges[j]? = some new ∧ Improves old new := by
  have t := (LRF.ready_inv h.ready).1.2.1
  have same : ∀ (j : ℕ) old, res.ranges[j]? = some old → ∃ new, res.ranges[j]? = some new ∧ Improves old new :=
    fun j old ho => ⟨old, ho, .refl _⟩
  unfold RenderResult.renderLine
  dsimp only
  split_ifs with c1 c2
  · exact ⟨_, rfl, hl, same⟩
  · exact ⟨_, rfl, hl, same⟩
  · obtain ⟨o, hp⟩ := parts_ok h p1 p2 res
    match o, hp with
    | none, hp =>
      simp only [hp, bind, Except.bind]
      exact ⟨_, rfl, hl, same⟩
    | some ((a1, b1), (a2, b2), (lo, hi)), hp =>
      obtain ⟨e1, e2⟩ := parts_le hp
      obtain ⟨r1, d1, d2, d3⟩ := drawPart_range l p1 (p2 - p1) a1 b1 res.ranges (by omega) (by omega)
      obtain ⟨r2, f1, f2, f3⟩ := drawPart_range l p1 (p2 - p1) a2 b2 r1 (by omega) (by omega)
      simp only [hp, bind, Except.bind, d1, f1]
      refine ⟨_, rfl, f2.trans (d2.trans hl), fun j old ho => ?_⟩
      exact ⟨_, by simp only [f3, d3, ho, Option.map_some],
        (drawn_improves l p1 (p2 - p1) a1 b1 j old).trans (drawn_improves l p1 (p2 - p1) a2 b2 j _)⟩

/-- Triangles never leave the tables and only improve ranges. -/
theorem renderTriangles_any {l : LRF} (h : Fine l) (T : Transform3) (ps : List Vec3) : ∀ (ts : List TriI) (res : RenderResult),
    Valid ps ts → res.ranges.length = l.numBeams →
    ∃ res', LRF.renderTriangles l T ps ts res = .ok res' ∧ res'.ranges.length = l.numBeams ∧
      ∀ (j : ℕ) old, res.ranges[j]? = some old → ∃ new, res'.ranges[j]? = some new ∧ Improves old new
  | [], res, _, hl => ⟨res, rfl, hl, fun j old ho => ⟨old, ho, .refl _⟩⟩
  | t :: ts, res, hv, hl => by
    obtain ⟨v1, v2, v3⟩ := hv t (by simp)
    have hv' : Valid ps ts := fun x hx => hv x (by simp [hx])
    simp only [LRF.renderTriangles, vget, List.getElem?_eq_getElem v1, List.getElem?_eq_getElem v2,
      List.getElem?_eq_getElem v3, bind, Except.bind]
    split
    · exact renderTriangles_any h T ps ts res hv' hl
    · rename_i q1 q2 _
      obtain ⟨r1, e1, e2, e3⟩ := renderLine_any h q1 q2 res hl
      obtain ⟨r2, f1, f2, f3⟩ := renderTriangles_any h T ps ts r1 hv' e2
      rw [e1]
      refine ⟨r2, f1, f2, fun j old ho => ?_⟩
      obtain ⟨n1, g1, g2⟩ := e3 j old ho
      obtain ⟨n2, g3, g4⟩ := f3 j n1 g1
      exact ⟨n2, g3, g2.trans g4⟩

/-- One triangle whose segment brings a range down brings it down in the whole mesh. -/
theorem renderTriangles_low {l : LRF} (h : Fine l) (T : Transform3) (ps : List Vec3) {t : TriI} {j : ℕ} {e : EReal}
    (hlow : ∀ res : RenderResult, res.ranges.length = l.numBeams → ∃ res' new,
      LRF.renderTriangles l T ps [t] res = .ok res' ∧ res'.ranges.length = l.numBeams ∧
        res'.ranges[j]? = some new ∧ new ≤ e ∧ new ≠ 0) :
    ∀ (ts : List TriI) (res : RenderResult), Valid ps ts → t ∈ ts → res.ranges.length = l.numBeams →
    ∃ res' new, LRF.renderTriangles l T ps ts res = .ok res' ∧ res'.ranges[j]? = some new ∧ new ≤ e ∧ new ≠ 0
  | [], _, _, ht, _ => by simp at ht
  | s :: ts, res, hv, ht, hl => by
    have hv' : Valid ps ts := fun x hx => hv x (by simp [hx])
    have hv1 : Valid ps [s] := fun x hx => hv x (by simp only [List.mem_singleton] at hx; simp [hx])
    have happ : ∀ r1, LRF.renderTriangles l T ps [s] res = .ok r1 →
        LRF.renderTriangles l T ps (s :: ts) res = LRF.renderTriangles l T ps ts r1 := by
      intro r1 h1
      obtain ⟨v1, v2, v3⟩ := hv s (by simp)
      simp only [LRF.renderTriangles, vget, List.getElem?_eq_getElem v1, List.getElem?_eq_getElem v2,
        List.getElem?_eq_getElem v3, bind, Except.bind] at h1 ⊢
      split at h1
      · rw [Except.ok.inj h1]
      · rename_i q1 q2 hsl
        cases hr : RenderResult.renderLine l res q1 q2 with
        | error _ => rw [hr] at h1; cases h1
        | ok r => rw [hr] at h1; simp only [Except.ok.injEq] at h1; rw [h1]
    by_cases hst : t = s
    · subst hst
      obtain ⟨r1, n1, e1, e2, e3, e4⟩ := hlow res hl
      obtain ⟨r2, f1, _, f3⟩ := renderTriangles_any h T ps ts r1 hv' e2
      obtain ⟨n2, g1, g2⟩ := f3 j n1 e3
      exact ⟨r2, n2, (happ r1 e1).trans f1, g1, g2.keeps e4⟩
    · obtain ⟨r1, e1, e2, _⟩ := renderTriangles_any h T ps [s] res hv1 hl
      obtain ⟨r2, n2, f⟩ := renderTriangles_low h T ps hlow ts r1 hv' (by simpa [hst] using ht) e2
      exact ⟨r2, n2, (happ r1 e1).trans f.1, f.2⟩

/-- Where changes come from: from the segment of some triangle. -/
theorem renderTriangles_change {l : LRF} (h : Fine l) (T : Transform3) (ps : List Vec3) (P : ℕ → EReal → Prop) :
    ∀ (ts : List TriI) (res res' : RenderResult), Valid ps ts → res.ranges.length = l.numBeams →
    (∀ t ∈ ts, ∀ a b c q1 q2, ps[t.i1]? = some a → ps[t.i2]? = some b → ps[t.i3]? = some c →
      LRF.slice (LRF.planar T a) (LRF.planar T b) (LRF.planar T c) (LRF.height T a) (LRF.height T b) (LRF.height T c) =
        some (q1, q2) → ∀ r r' : RenderResult, r.ranges.length = l.numBeams → RenderResult.renderLine l r q1 q2 = .ok r' →
        ∀ (j : ℕ) old new, r.ranges[j]? = some old → r'.ranges[j]? = some new → new ≠ old → P j new) →
    LRF.renderTriangles l T ps ts res = .ok res' →
    ∀ (j : ℕ) old new, res.ranges[j]? = some old → res'.ranges[j]? = some new → new ≠ old → P j new
  | [], res, res', _, _, _, hr => by
    intro j old new h1 h2 h3
    rw [← Except.ok.inj hr, h1] at h2
    exact absurd (Option.some.inj h2).symm h3
  | t :: ts, res, res', hv, hl, hP, hr => by
    obtain ⟨v1, v2, v3⟩ := hv t (by simp)
    have hv' : Valid ps ts := fun x hx => hv x (by simp [hx])
    have ih := fun r => renderTriangles_change h T ps P ts r res' hv'
    simp only [LRF.renderTriangles, vget, List.getElem?_eq_getElem v1, List.getElem?_eq_getElem v2,
      List.getElem?_eq_getElem v3, bind, Except.bind] at hr
    split at hr
    · exact ih res hl (fun x hx => hP x (by simp [hx])) hr
    · rename_i q1 q2 hsl
      obtain ⟨r1, e1, e2, e3⟩ := renderLine_any h q1 q2 res hl
      rw [e1] at hr
      intro j old new h1 h2 h3
      obtain ⟨n1, g1, _⟩ := e3 j old h1
      by_cases hc : new = n1
      · subst hc
        exact hP t (by simp) _ _ _ q1 q2 (List.getElem?_eq_getElem v1) (List.getElem?_eq_getElem v2)
          (List.getElem?_eq_getElem v3) hsl res r1 hl e1 j old new h1 g1 h3
      · exact ih r1 e2 (fun x hx => hP x (by simp [hx])) hr j n1 new g1 h2 hc

theorem resize_length (ranges : List EReal) (n : ℕ) : (LRF.resizeRanges ranges n).length = n := by
  simp [LRF.resizeRanges]
  omega

theorem resize_get (ranges : List EReal) (n : ℕ) {j : ℕ} (hj : j < n) :
    (LRF.resizeRanges ranges n)[j]? = some ((ranges[j]?).getD 0) := by
  unfold LRF.resizeRanges
  rw [List.getElem?_append]
  by_cases h : j < ranges.length
  · rw [if_pos (by simp; omega), List.getElem?_take, if_pos hj, List.getElem?_eq_getElem h]
    rfl
  · rw [if_neg (by simp; omega), List.getElem?_replicate, if_pos (by simp; omega), List.getElem?_eq_none (by omega)]
    rfl

/-! ## Triangles facing the sensor -/

/-- Six times the volume of the tetrahedron with the origin. -/
def vol (A B C : Vec3) : ℝ :=
  A.x * (B.y * C.z - B.z * C.y) + A.y * (B.z * C.x - B.x * C.z) + A.z * (B.x * C.y - B.y * C.x)

theorem facesOrigin_iff (A B C : Vec3) : FacesOrigin A B C ↔ vol A B C < 0 := by
  unfold FacesOrigin vol
  constructor <;> intro h <;> linarith

/-- The segment of a triangle facing the sensor, seen from an apex, for a point strictly inside. -/
theorem apex_strict {A B C X : Vec3} (ha : Apex A.z B.z C.z) (hv : vol A B C ≠ 0) (hX : InsideTriangle A B C X) (hz : X.z = 0) :
    A.z ≠ 0 ∧ ∃ t, 0 < t ∧ t < 1 ∧ AtParam (LRF.cut ⟨A.x, A.y⟩ ⟨B.x, B.y⟩ A.z B.z) (LRF.cut ⟨A.x, A.y⟩ ⟨C.x, C.y⟩ A.z C.z) t
      ⟨X.x, X.y⟩ := by
  obtain ⟨a, b, c, pa, pb, pc, hs, hx, hy, hzz⟩ := hX
  have hA : A.z ≠ 0 := by
    intro h0
    rcases ha with ⟨h1, _, _⟩ | ⟨_, h2, h3⟩
    · linarith
    · have := mul_neg_of_pos_of_neg pb h2
      have := mul_neg_of_pos_of_neg pc h3
      rw [h0] at hzz
      linarith
  refine ⟨hA, ?_⟩
  obtain ⟨t, h0, h1, hq⟩ := (ha.section (A := ⟨A.x, A.y⟩) (B := ⟨B.x, B.y⟩) (C := ⟨C.x, C.y⟩) (q := ⟨X.x, X.y⟩)).1
    ⟨a, b, c, pa.le, pb.le, pc.le, hs, by linarith, hx, hy⟩
  obtain ⟨s1, s10, s11, ⟨s1x, s1y⟩, s1z⟩ := ha.edge ⟨A.x, A.y⟩ ⟨B.x, B.y⟩
  obtain ⟨s2, s20, s21, ⟨s2x, s2y⟩, s2z⟩ := ha.swap.edge ⟨A.x, A.y⟩ ⟨C.x, C.y⟩
  refine ⟨t, lt_of_le_of_ne h0 ?_, lt_of_le_of_ne h1 ?_, hq⟩
  · rintro rfl
    obtain ⟨qx, qy⟩ := hq
    simp only [zero_mul, add_zero] at qx qy
    simp only at s1x s1y
    have ex : a * A.x + b * B.x + c * C.x = (1 - s1) * A.x + s1 * B.x := by linarith
    have ey : a * A.y + b * B.y + c * C.y = (1 - s1) * A.y + s1 * B.y := by linarith
    have ez : a * A.z + b * B.z + c * C.z = (1 - s1) * A.z + s1 * B.z := by linarith
    have : c * vol A B C = 0 := by
      unfold vol
      linear_combination (A.y * B.z - A.z * B.y) * ex + (A.z * B.x - A.x * B.z) * ey + (A.x * B.y - A.y * B.x) * ez
    exact hv ((mul_eq_zero.1 this).resolve_left pc.ne')
  · rintro rfl
    obtain ⟨qx, qy⟩ := hq
    simp only [one_mul, add_sub_cancel] at qx qy
    simp only at s2x s2y
    have ex : a * A.x + b * B.x + c * C.x = (1 - s2) * A.x + s2 * C.x := by linarith
    have ey : a * A.y + b * B.y + c * C.y = (1 - s2) * A.y + s2 * C.y := by linarith
    have ez : a * A.z + b * B.z + c * C.z = (1 - s2) * A.z + s2 * C.z := by linarith
    have : b * vol A B C = 0 := by
      unfold vol
      linear_combination (A.z * C.y - A.y * C.z) * ex + (A.x * C.z - A.z * C.x) * ey + (A.y * C.x - A.x * C.y) * ez
    exact hv ((mul_eq_zero.1 this).resolve_left pb.ne')

/-- The orientation of the segment seen from the origin. -/
theorem apex_cross {A B C : Vec3} (ha : Apex A.z B.z C.z) :
    ∃ k : ℝ, (0 < A.z → 0 < k) ∧ (A.z < 0 → k < 0) ∧
      (LRF.cut ⟨A.x, A.y⟩ ⟨C.x, C.y⟩ A.z C.z).cross (LRF.cut ⟨A.x, A.y⟩ ⟨B.x, B.y⟩ A.z B.z) = -k * vol A B C := by
  obtain ⟨k, k1, _, k3, kx, ky⟩ := ha.facing ⟨A.x, A.y⟩ ⟨B.x, B.y⟩ ⟨C.x, C.y⟩
  obtain ⟨s, _, _, ⟨sx, sy⟩, sz⟩ := ha.swap.edge ⟨A.x, A.y⟩ ⟨C.x, C.y⟩
  refine ⟨k, k1, k3, ?_⟩
  generalize LRF.cut ⟨A.x, A.y⟩ ⟨C.x, C.y⟩ A.z C.z = q at *
  generalize LRF.cut ⟨A.x, A.y⟩ ⟨B.x, B.y⟩ A.z B.z = r at *
  simp only at kx ky sx sy
  have e1 : q.cross r = q.x * (r.y - q.y) - q.y * (r.x - q.x) := by unfold Vec2.cross; ring
  rw [e1, kx, ky]
  have hplane : ((B.y - A.y) * (C.z - A.z) - (B.z - A.z) * (C.y - A.y)) * q.x +
      ((B.z - A.z) * (C.x - A.x) - (B.x - A.x) * (C.z - A.z)) * q.y = vol A B C := by
    unfold vol
    rw [sx, sy]
    linear_combination (-((B.x - A.x) * (C.y - A.y) - (B.y - A.y) * (C.x - A.x))) * sz
  linear_combination (-k) * hplane

theorem inside_rotate {A B C X : Vec3} (h : InsideTriangle A B C X) : InsideTriangle B C A X := by
  obtain ⟨a, b, c, h1, h2, h3, h4, h5, h6, h7⟩ := h
  exact ⟨b, c, a, h2, h3, h1, by linarith, by linarith, by linarith, by linarith⟩

theorem vol_rotate (A B C : Vec3) : vol B C A = vol A B C := by unfold vol; ring

/-- A point of the sensor plane strictly inside a triangle facing the sensor is strictly inside the triangle's segment, which
is seen counter-clockwise. -/
theorem slice_hit {A B C X : Vec3} (hf : FacesOrigin A B C) (hX : InsideTriangle A B C X) (hz : X.z = 0) :
    ∃ q1 q2 t, LRF.slice ⟨A.x, A.y⟩ ⟨B.x, B.y⟩ ⟨C.x, C.y⟩ A.z B.z C.z = some (q1, q2) ∧ 0 < q1.cross q2 ∧ 0 < t ∧ t < 1 ∧
      AtParam q1 q2 t ⟨X.x, X.y⟩ := by
  have hv := (facesOrigin_iff A B C).1 hf
  have core : ∀ A B C : Vec3, Apex A.z B.z C.z → vol A B C < 0 → InsideTriangle A B C X →
      ∃ q1 q2 t, (if B.z < 0 then some (LRF.cut ⟨A.x, A.y⟩ ⟨C.x, C.y⟩ A.z C.z, LRF.cut ⟨A.x, A.y⟩ ⟨B.x, B.y⟩ A.z B.z)
        else some (LRF.cut ⟨A.x, A.y⟩ ⟨B.x, B.y⟩ A.z B.z, LRF.cut ⟨A.x, A.y⟩ ⟨C.x, C.y⟩ A.z C.z)) = some (q1, q2) ∧
        0 < q1.cross q2 ∧ 0 < t ∧ t < 1 ∧ AtParam q1 q2 t ⟨X.x, X.y⟩ := by
    intro A B C ha hv hX
    obtain ⟨hA, t, t0, t1, tx, ty⟩ := apex_strict ha hv.ne hX hz
    obtain ⟨k, k1, k3, hk⟩ := apex_cross ha
    split_ifs with hB
    · have hA' : 0 < A.z := by
        rcases ha with ⟨_, h2, _⟩ | ⟨h1, _, _⟩
        · linarith
        · exact lt_of_le_of_ne h1 (Ne.symm hA)
      refine ⟨_, _, 1 - t, rfl, ?_, by linarith, by linarith, by rw [tx]; ring, by rw [ty]; ring⟩
      rw [hk]
      have := mul_pos_of_neg_of_neg (neg_neg_of_pos (k1 hA')) hv
      linarith
    · have hA' : A.z < 0 := by
        rcases ha with ⟨h1, _, _⟩ | ⟨_, h2, _⟩ <;> linarith
      refine ⟨_, _, t, rfl, ?_, t0, t1, tx, ty⟩
      have e : (LRF.cut ⟨A.x, A.y⟩ ⟨B.x, B.y⟩ A.z B.z).cross (LRF.cut ⟨A.x, A.y⟩ ⟨C.x, C.y⟩ A.z C.z) =
        -((LRF.cut ⟨A.x, A.y⟩ ⟨C.x, C.y⟩ A.z C.z).cross (LRF.cut ⟨A.x, A.y⟩ ⟨B.x, B.y⟩ A.z B.z)) := by
        unfold Vec2.cross; ring
      rw [e, hk]
      have := mul_pos_of_neg_of_neg (k3 hA') hv
      linarith
  rcases slice_cases ⟨A.x, A.y⟩ ⟨B.x, B.y⟩ ⟨C.x, C.y⟩ A.z B.z C.z with ⟨_, hc⟩ | ⟨ha, hs⟩ | ⟨ha, hs⟩ | ⟨ha, hs⟩
  · exfalso
    obtain ⟨a, b, c, h1, h2, h3, h4, _, _, h7⟩ := hX
    rw [hz] at h7
    rcases hc with ⟨c1, c2, c3⟩ | ⟨c1, c2, c3⟩
    · have := mul_neg_of_pos_of_neg h1 c1
      have := mul_neg_of_pos_of_neg h2 c2
      have := mul_neg_of_pos_of_neg h3 c3
      linarith
    · have d1 := mul_nonneg h1.le c1
      have d2 := mul_nonneg h2.le c2
      have d3 := mul_nonneg h3.le c3
      have e1 : A.z = 0 := (mul_eq_zero.1 (by linarith : a * A.z = 0)).resolve_left h1.ne'
      have e2 : B.z = 0 := (mul_eq_zero.1 (by linarith : b * B.z = 0)).resolve_left h2.ne'
      have e3 : C.z = 0 := (mul_eq_zero.1 (by linarith : c * C.z = 0)).resolve_left h3.ne'
      unfold vol at hv
      rw [e1, e2, e3] at hv
      linarith
  · rw [hs]; exact core A B C ha hv hX
  · have := core B C A ha (by rwa [vol_rotate]) (inside_rotate hX)
    rw [hs]
    split_ifs at this ⊢ <;> exact this
  · have := core C A B ha (by rwa [vol_rotate, vol_rotate]) (inside_rotate (inside_rotate hX))
    rw [hs]
    exact this

/-- Angles of points in the cone around the x axis with opening a quarter turn. -/
theorem atan2_cone {x y : ℝ} (hx : 0 < x) (h : |y| ≤ x) : |atan2 y x| ≤ Real.pi / 4 := by
  have hp := Real.pi_pos
  obtain ⟨ρ, hρ, ex, ey⟩ := polar_form (p := ⟨x, y⟩) (fun c => hx.ne' c.1)
  have hb := (Complex.abs_arg_lt_pi_div_two_iff (z := ⟨x, y⟩)).2 (.inl hx)
  change |atan2 y x| < _ at hb
  simp only at ex ey
  generalize atan2 y x = θ at *
  obtain ⟨b1, b2⟩ := abs_lt.1 hb
  obtain ⟨c1, c2⟩ := abs_le.1 h
  have s4 : (0 : ℝ) < Real.sqrt 2 / 2 := by positivity
  rw [abs_le]
  constructor
  · by_contra hc
    have := Real.sin_pos_of_pos_of_lt_pi (x := -θ - Real.pi / 4) (by linarith) (by linarith)
    rw [Real.sin_sub, Real.sin_neg, Real.cos_neg, Real.cos_pi_div_four, Real.sin_pi_div_four] at this
    have h2 : 0 < -Real.sin θ - Real.cos θ := pos_of_mul_pos_left (by linarith : 0 < (-Real.sin θ - Real.cos θ) * (Real.sqrt 2 / 2)) s4.le
    have := mul_pos hρ h2
    linarith
  · by_contra hc
    have := Real.sin_pos_of_pos_of_lt_pi (x := θ - Real.pi / 4) (by linarith) (by linarith)
    rw [Real.sin_sub, Real.cos_pi_div_four, Real.sin_pi_div_four] at this
    have h2 : 0 < Real.sin θ - Real.cos θ := pos_of_mul_pos_left (by linarith : 0 < (Real.sin θ - Real.cos θ) * (Real.sqrt 2 / 2)) s4.le
    have := mul_pos hρ h2
    linarith

end Geo
