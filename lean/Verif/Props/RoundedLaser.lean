import Verif.Lemmas.RoundedLaserExact
import Verif.Lemmas.RoundedOctree
import Verif.Props.Rounded

/-!
# C121: the laser range finder in floating point arithmetic
-/

namespace Geo

open Spec RoundedLRF

variable {F : FloatLib} {u v : ℝ}

/-- C121. With exact operations the functions are those of the model in real numbers. -/
theorem C121_exact (l : LRF) (ops : List LRF.Op) (a : ℝ) (res : RenderResult) (p1 p2 : Vec2) (mesh : Mesh) (T : Transform3)
    (ranges : List EReal) :
    run .exact l ops = l.run ops ∧ getAngleUpperIndexRaw .exact l a = l.getAngleUpperIndexRaw a ∧
    renderLine .exact l res p1 p2 = RenderResult.renderLine l res p1 p2 ∧
    render .exact l mesh mesh.getMaxRadius.2 T ranges = l.render mesh T ranges :=
  ⟨exact_run ops l, exact_index l a, exact_line l res p1 p2, exact_render l mesh T ranges⟩

/-- Double precision with correctly rounded library functions. Models the platform (no line in /repo). -/
noncomputable def doubleLib : FloatLib :=
  ⟨toDouble, toFloat, fun a => toDouble (Real.cos a), fun a => toDouble (Real.sin a), fun y x => toDouble (atan2 y x),
    toDouble Real.pi⟩

/-- C121. Double precision with correctly rounded library functions has the accuracy the theorems ask for. -/
theorem C121_library : Accurate (1 / 2 ^ 53) (1 / 2 ^ 24) doubleLib := by
  obtain ⟨h1, h2⟩ := C93_roundings
  have one : ∀ x : ℝ, |x| ≤ 1 → |toDouble x - x| ≤ 2 * (1 / 2 ^ 53) := fun x hx =>
    (h1 x).trans ((mul_le_mul_of_nonneg_left hx (by norm_num)).trans (by norm_num))
  have two : ∀ x : ℝ, |toDouble x - x| ≤ 2 * (1 / 2 ^ 53) * |x| := fun x =>
    (h1 x).trans (mul_le_mul_of_nonneg_right (by norm_num) (abs_nonneg x))
  refine ⟨h1, h2, fun a => one _ (Real.abs_cos_le_one a), fun a => one _ (Real.abs_sin_le_one a), fun y x => two _, ?_⟩
  have := two Real.pi
  rwa [abs_of_pos Real.pi_pos] at this

/-- C121. A sensor with limits about a turn at most, whose beams are not closer than about 4e-9 rad, can be configured
without undefined behaviour. -/
theorem C121_setup (hF : Accurate u v F) (hu : u ≤ 1 / 1000) {a b : ℝ} (r R : ℝ) {n : ℕ} (hn : 0 < n) (hab : a < b)
    (lo : -4 ≤ a) (hi : b ≤ 4) (hf : n * u ≤ 1 / 1000) (hs : 8 * (max (n - 1) 1 : ℕ) ≤ (2 ^ 31 - 3) * (b - a)) :
    ∃ l, run F LRF.new [.rangeLimits r R, .angleLimits a b, .numBeams n] = .ok l ∧ l.aMin = a ∧ l.aMax = b ∧
      l.numBeams = n ∧ l.rangeMax = R ∧ RoundedFine u F l :=
  setup hF hu hn hab lo hi hf hs

/-- A sensor in double precision with five beams from -1 to 1. -/
theorem C121_five : ∃ l, run doubleLib LRF.new [.rangeLimits 0 30, .angleLimits (-1) 1, .numBeams 5] = .ok l ∧ l.aMin = -1 ∧
    l.aMax = 1 ∧ l.numBeams = 5 ∧ l.rangeMax = 30 ∧ RoundedFine (1 / 2 ^ 53) doubleLib l :=
  C121_setup C121_library (by norm_num) 0 30 (by norm_num) (by norm_num) (by norm_num) (by norm_num) (by norm_num) (by norm_num)

/-- C121. After any history of setter calls the sensor has the limits, ranges and beams set last, and its tables have one
entry for each beam; the angle of beam `i` is off by at most `u (2 i + 5)` times the greater limit, and the coordinates of its
direction by little more. -/
theorem C121_table (hF : Accurate u v F) (hu : u ≤ 1 / 1000) {ops : List LRF.Op} {l : LRF} (h : run F LRF.new ops = .ok l) :
    (l.aMin, l.aMax) = lastLimits ops ∧ (l.rangeMin, l.rangeMax) = lastRange ops ∧ l.numBeams = lastBeams ops ∧
    (0 < lastBeams ops → (lastLimits ops).1 < (lastLimits ops).2 → lastBeams ops * u ≤ 1 / 1000 →
      l.angles.length = lastBeams ops ∧ l.rayDirs.length = lastBeams ops ∧
      ∀ i < lastBeams ops, ∃ a d, l.angles[i]? = some a ∧ l.rayDirs[i]? = some d ∧
        |a - beamAngle (lastLimits ops).1 (lastLimits ops).2 (lastBeams ops) i| ≤
          beamErr u (lastLimits ops).1 (lastLimits ops).2 i ∧
        |d.x - Real.cos (beamAngle (lastLimits ops).1 (lastLimits ops).2 (lastBeams ops) i)| ≤
          dirErr u (lastLimits ops).1 (lastLimits ops).2 i ∧
        |d.y - Real.sin (beamAngle (lastLimits ops).1 (lastLimits ops).2 (lastBeams ops) i)| ≤
          dirErr u (lastLimits ops).1 (lastLimits ops).2 i ∧ d.z = 0) := by
  obtain ⟨i1, i2, i3, i4⟩ := run_inv hF.rnd hu ops _ _ inv_new h
  have j2 : (l.aMin, l.aMax) = lastLimits ops := i2
  have j4 : l.numBeams = lastBeams ops := i4
  refine ⟨j2, i3, j4, ?_⟩
  rw [← j2, ← j4]
  intro hn hl hm
  obtain ⟨t1, t2, -, t4⟩ := tables hF hu i1 hn hl hm
  exact ⟨t1, t2, t4⟩

/-- The last of the five beams has angle 1 up to 13 roundings. -/
example : ∃ l a, run doubleLib LRF.new [.rangeLimits 0 30, .angleLimits (-1) 1, .numBeams 5] = .ok l ∧
    l.angles[4]? = some a ∧ |a - 1| ≤ 13 / 2 ^ 53 := by
  obtain ⟨l, h, -⟩ := C121_five
  obtain ⟨-, -, -, t⟩ := C121_table C121_library (by norm_num) h
  obtain ⟨-, -, t3⟩ := t (by norm_num [lastBeams]) (by norm_num [lastLimits]) (by norm_num [lastBeams])
  obtain ⟨a, d, h1, -, h2, -⟩ := t3 4 (by norm_num [lastBeams])
  refine ⟨l, a, h, h1, h2.trans_eq' ?_ |>.trans ?_⟩
  · norm_num [beamAngle, lastLimits, lastBeams]
  · norm_num [beamErr, lastLimits]

/-- C121. The index computed from an angle in the range of `atan2` is the number of steps of the ideal grid up to the angle,
plus one, of an angle that is off by at most `5 u` times the distance to the lower limit: an index counts a beam at most too
much or too little, and only if the angle is that close to a beam. -/
theorem C121_index (hF : Accurate u v F) (hu : u ≤ 1 / 1000) {l : LRF} (h : RoundedFine u F l) {a : ℝ} (ha : |a| ≤ 3.2)
    (hlo : l.aMin ≤ a) :
    ∃ k : ℤ, getAngleUpperIndexRaw F l a = .ok k ∧ 1 ≤ k ∧
      l.aMin + (k - 1) * spacing l ≤ a + 5 * u * (a - l.aMin) ∧ a - 5 * u * (a - l.aMin) < l.aMin + k * spacing l ∧
      (5 * u * (a - l.aMin) ≤ spacing l → |k - (⌊(a - l.aMin) / spacing l⌋ + 1)| ≤ 1) ∧
      ((∀ i : ℕ, 5 * u * (a - l.aMin) < |l.aMin + i * spacing l - a|) → k = ⌊(a - l.aMin) / spacing l⌋ + 1) := by
  have hu0 := relErr_nonneg' hF.rnd
  have hs := spacing_pos h.order
  obtain ⟨k, q, hk, e, p, n⟩ := index_ok hF hu h ha
  obtain ⟨w, hw⟩ : ∃ w, w = (a - l.aMin) / spacing l := ⟨_, rfl⟩
  have hw0 : 0 ≤ w := by rw [hw]; exact div_nonneg (by linarith) hs.le
  have hm : a - l.aMin = w * spacing l := by rw [hw]; field_simp
  rw [← hw] at e ⊢
  rw [abs_of_nonneg hw0] at e
  obtain ⟨e1, e2⟩ := abs_le.1 e
  have huw := mul_nonneg hu0 hw0
  have hq : 0 ≤ q := by linarith [mul_le_mul_of_nonneg_right hu hw0]
  obtain ⟨p1, p2, p3⟩ := p hq
  have k1 : (1 : ℝ) ≤ k := by exact_mod_cast p1
  have A : (k : ℝ) - 1 ≤ w + 4.2 * u * w := by linarith
  have B : w - 4.2 * u * w < k := by linarith
  have A' := mul_le_mul_of_nonneg_right A hs.le
  have B' := mul_lt_mul_of_pos_right B hs
  have huws := mul_nonneg huw hs.le
  have f1 := Int.floor_le w
  have f2 := Int.lt_floor_add_one w
  have f0 : 0 ≤ ⌊w⌋ := Int.floor_nonneg.2 hw0
  refine ⟨k, hk, p1, ?_, ?_, fun hc => ?_, fun hc => ?_⟩
  · rw [hm]
    linarith
  · rw [hm]
    linarith
  · rw [hm] at hc
    have c : 5 * u * w ≤ 1 := le_of_mul_le_mul_right (by linarith) hs
    have g1 : ((k : ℤ) : ℝ) < ((⌊w⌋ + 3 : ℤ) : ℝ) := by push_cast; linarith
    have g2 : ((⌊w⌋ - 1 : ℤ) : ℝ) < (k : ℝ) := by push_cast; linarith
    have g1' := Int.cast_lt.1 g1
    have g2' := Int.cast_lt.1 g2
    rw [abs_le]
    constructor <;> omega
  · have hc' : ∀ i : ℤ, 0 ≤ i → 5 * u * w < |(i : ℝ) - w| := by
      intro i hi
      have := hc i.toNat
      have ei : ((i.toNat : ℕ) : ℝ) = (i : ℝ) := by exact_mod_cast Int.toNat_of_nonneg hi
      rw [ei, hm, show l.aMin + (i : ℝ) * spacing l - a = ((i : ℝ) - w) * spacing l by linarith, abs_mul,
        abs_of_pos hs] at this
      exact lt_of_mul_lt_mul_right (by linarith) hs.le
    have g1 : k - 1 ≤ ⌊w⌋ := by
      rw [Int.le_floor]
      push_cast
      by_contra hn
      have := hc' (k - 1) (by omega)
      push_cast at this
      rw [abs_of_pos (by linarith [not_le.1 hn])] at this
      linarith
    have g2 : ⌊w⌋ < k := by
      rw [Int.floor_lt]
      by_contra hn
      have := hc' k (by omega)
      rw [abs_of_nonpos (by linarith [not_lt.1 hn])] at this
      linarith
    omega

/-- The angle 0.1 has index 3 in the sensor with five beams: those at -1, -0.5 and 0 are below it. -/
example : ∃ l, run doubleLib LRF.new [.rangeLimits 0 30, .angleLimits (-1) 1, .numBeams 5] = .ok l ∧
    getAngleUpperIndexRaw doubleLib l 0.1 = .ok 3 := by
  obtain ⟨l, h, a1, a2, a3, -, f⟩ := C121_five
  have hs : spacing l = 1 / 2 := by rw [spacing, a1, a2, a3]; norm_num
  obtain ⟨k, hk, -, -, -, -, e⟩ := C121_index C121_library (by norm_num) f (a := 0.1) (by norm_num [abs_le]) (by rw [a1]; norm_num)
  rw [a1, hs] at e
  have : ⌊((0.1 : ℝ) - -1) / (1 / 2)⌋ = 2 := by rw [Int.floor_eq_iff]; norm_num
  rw [this] at e
  refine ⟨l, h, ?_⟩
  rw [hk, e fun i => ?_]
  · rfl
  · rcases Nat.lt_or_ge i 3 with hi | hi
    · have : (i : ℝ) ≤ 2 := by exact_mod_cast Nat.lt_succ_iff.1 hi
      rw [abs_of_neg (by linarith)]
      linarith
    · have : (3 : ℝ) ≤ i := by exact_mod_cast hi
      rw [abs_of_pos (by linarith)]
      linarith

/-- C121. Drawing a line is safe, leaves one range for each beam and lets ranges only become smaller. -/
theorem C121_line (hF : Accurate u v F) (hu : u ≤ 1 / 1000) (hv : v ≤ 1 / 1000) {l : LRF} (h : RoundedFine u F l) (p1 p2 : Vec2)
    {res : RenderResult} (hl : res.ranges.length = l.numBeams) :
    ∃ res', renderLine F l res p1 p2 = .ok res' ∧ res'.ranges.length = l.numBeams ∧
      ∀ (j : ℕ) old, res.ranges[j]? = some old → ∃ new, res'.ranges[j]? = some new ∧ Improves old new := by
  obtain ⟨res', h1, h2, h3⟩ := RoundedLRF.renderLine_any hF hu h p1 p2 res hl
  refine ⟨res', h1, h2, fun j old ho => ?_⟩
  obtain ⟨new, n1, n2⟩ := h3 j old ho
  exact ⟨new, n1, n2.improves hF hv⟩

/-- A line through the sensor, which has beams on both of its sides, is drawn safely. -/
example : ∃ l res, RoundedFine (1 / 2 ^ 53) doubleLib l ∧
    renderLine doubleLib l ⟨0, 0, [0, 0, 0, 0, 0]⟩ ⟨-1, -1⟩ ⟨1, 1⟩ = .ok res ∧ res.ranges.length = 5 := by
  obtain ⟨l, -, -, -, a3, -, f⟩ := C121_five
  obtain ⟨res, r1, r2, -⟩ := C121_line C121_library (by norm_num) (by norm_num) f ⟨-1, -1⟩ ⟨1, 1⟩
    (res := ⟨0, 0, [0, 0, 0, 0, 0]⟩) (by rw [a3]; rfl)
  exact ⟨l, res, f, r1, by rw [r2, a3]⟩

/-- C121. Rendering a mesh is safe for every pose and every radius, gives one range for each beam, and keeps or improves the
ranges that were there. -/
theorem C121_render (hF : Accurate u v F) (hu : u ≤ 1 / 1000) (hv : v ≤ 1 / 1000) {l : LRF} (h : RoundedFine u F l) {mesh : Mesh}
    (hm : Valid mesh.points mesh.tris) (R : ℝ) (T : Transform3) (ranges : List EReal) :
    ∃ res, render F l mesh R T ranges = .ok res ∧ res.ranges.length = l.numBeams ∧
      ∀ j < l.numBeams, ∃ new, res.ranges[j]? = some new ∧ Improves (ranges[j]?.getD 0) new := by
  have t := (tables hF hu (h.inv hF hu) h.beams h.order h.few).2.1
  have len : (LRF.resizeRanges ranges l.rayDirs.length).length = l.numBeams := by rw [resize_length, t]
  have get : ∀ j < l.numBeams, (LRF.resizeRanges ranges l.rayDirs.length)[j]? = some (ranges[j]?.getD 0) := by
    intro j hj
    rw [← t] at hj
    exact resize_get _ _ hj
  unfold render
  dsimp only
  split_ifs with c
  · exact ⟨_, rfl, len, fun j hj => ⟨_, get j hj, .refl _⟩⟩
  · obtain ⟨res, r1, r2, r3⟩ := RoundedLRF.renderTriangles_any hF hu hv h T mesh.points mesh.tris
      ⟨0, u32 l.rayDirs.length, LRF.resizeRanges ranges l.rayDirs.length⟩ hm len
    exact ⟨res, r1, r2, fun j hj => r3 j _ (get j hj)⟩

/-- A triangle across the plane of the sensor is rendered into an empty buffer. -/
example (T : Transform3) : ∃ l res, RoundedFine (1 / 2 ^ 53) doubleLib l ∧
    render doubleLib l { Mesh.new with points := [⟨1, 0, -1⟩, ⟨1, 1, 1⟩, ⟨1, -1, 1⟩], tris := [⟨0, 1, 2⟩] } 2 T [] = .ok res ∧
    res.ranges.length = 5 := by
  obtain ⟨l, -, -, -, a3, -, f⟩ := C121_five
  obtain ⟨res, r1, r2, -⟩ := C121_render C121_library (by norm_num) (by norm_num) f
    (mesh := { Mesh.new with points := [⟨1, 0, -1⟩, ⟨1, 1, 1⟩, ⟨1, -1, 1⟩], tris := [⟨0, 1, 2⟩] })
    (by intro t ht; simp at ht; subst ht; simp) 2 T []
  exact ⟨l, res, f, r1, by rw [r2, a3]⟩

/-- C121. Whatever line is drawn: a range that changes becomes the distance `d` along the ideal beam to the ideal line up to
`depthErr`, where `κ` is a lower bound for the sine of the angle between beam and line (up to the norm). -/
theorem C121_depth (hF : Accurate u v F) (hu : u ≤ 1 / 1000) (hv : v ≤ 1 / 1000) {l : LRF} (h : RoundedFine u F l) (p1 p2 : Vec2)
    {res : RenderResult} (hl : res.ranges.length = l.numBeams) :
    ∃ res', renderLine F l res p1 p2 = .ok res' ∧
      ∀ (j : ℕ) old, res.ranges[j]? = some old → ∃ new, res'.ranges[j]? = some new ∧
        (new ≠ old → ∀ κ, 0 < κ → 5 * dirErr u l.aMin l.aMax j ≤ κ →
          κ * (|(p2 - p1).x| + |(p2 - p1).y|) ≤ |(dir (beamAngle l.aMin l.aMax l.numBeams j)).cross (p2 - p1)| →
          ∃ d x : ℝ, new = (x : EReal) ∧ 0 < x ∧
            OnLine p1 p2 ⟨d * Real.cos (beamAngle l.aMin l.aMax l.numBeams j),
              d * Real.sin (beamAngle l.aMin l.aMax l.numBeams j)⟩ ∧
            |x - d| ≤ depthErr u v (dirErr u l.aMin l.aMax j) (max |p1.x| |p1.y|) κ d) := by
  have hu0 := relErr_nonneg' hF.rnd
  obtain ⟨res', h1, -, h3⟩ := RoundedLRF.renderLine_any hF hu h p1 p2 res hl
  refine ⟨res', h1, fun j old ho => ?_⟩
  obtain ⟨new, n1, n2⟩ := h3 j old ho
  refine ⟨new, n1, fun hne κ hκ hη hk => ?_⟩
  have hj : j < l.numBeams := by
    rw [← hl]
    exact (List.getElem?_eq_some_iff.1 ho).1
  rcases n2 with n2 | ⟨n2, -⟩
  · exact absurd n2 hne
  have hs : 0 < |(p2 - p1).x| + |(p2 - p1).y| := by
    rcases (add_nonneg (abs_nonneg (p2 - p1).x) (abs_nonneg (p2 - p1).y)).lt_or_eq with hs | hs
    · exact hs
    · have hx : (p2 - p1).x = 0 := abs_eq_zero.1 (by linarith [abs_nonneg (p2 - p1).x, abs_nonneg (p2 - p1).y])
      have hy : (p2 - p1).y = 0 := abs_eq_zero.1 (by linarith [abs_nonneg (p2 - p1).x, abs_nonneg (p2 - p1).y])
      have z := rel_zero hF.rnd
      rw [hit_same hF (s := sub F p2 p1) (by simpa [sub, z] using congrArg F.rnd hx) (by simpa [sub, z] using congrArg F.rnd hy)] at n2
      exact absurd n2 (by simp)
  obtain ⟨y, y1, -, y3⟩ := hit_err hF hu hv h hj hκ hη (dirErr_le hu0 hu h hj) hs hk
  rw [y1] at n2
  split_ifs at n2 with hy
  refine ⟨_, F.toF y, (Option.some.inj n2).symm, (rel_pos hF.toF hv).2 hy, quotient_onLine (r := dir _) ?_, y3⟩
  intro h0
  rw [h0, abs_zero] at hk
  exact absurd hk (not_le.2 (mul_pos hκ hs))

/-- A wall at distance 1 across the middle beam: if the range changes, it is 1 up to 1.2e-7. -/
example : ∃ l res new, RoundedFine (1 / 2 ^ 53) doubleLib l ∧
    renderLine doubleLib l ⟨0, 0, [0, 0, 0, 0, 0]⟩ ⟨1, -1⟩ ⟨1, 1⟩ = .ok res ∧ res.ranges[2]? = some new ∧
    (new ≠ 0 → ∃ x : ℝ, new = (x : EReal) ∧ |x - 1| ≤ 1.2e-7) := by
  obtain ⟨l, -, a1, a2, a3, -, f⟩ := C121_five
  obtain ⟨res, r1, r2⟩ := C121_depth C121_library (by norm_num) (by norm_num) f ⟨1, -1⟩ ⟨1, 1⟩
    (res := ⟨0, 0, [0, 0, 0, 0, 0]⟩) (by rw [a3]; rfl)
  obtain ⟨new, n1, n2⟩ := r2 2 0 rfl
  refine ⟨l, res, new, f, r1, n1, fun hn => ?_⟩
  have e : beamAngle l.aMin l.aMax l.numBeams 2 = 0 := by rw [a1, a2, a3]; norm_num [beamAngle]
  have e' : dirErr (1 / 2 ^ 53) l.aMin l.aMax 2 = 13 / 2 ^ 53 := by rw [a1, a2]; norm_num [dirErr, beamErr]
  have n3 := n2 hn 1 (by norm_num) (by rw [e']; norm_num) (by rw [e]; norm_num [dir, Vec2.cross])
  rw [e, e'] at n3
  obtain ⟨d, x, x1, -, ⟨t, x3, -⟩, x4⟩ := n3
  have hd : d = 1 := by simpa using x3
  subst hd
  exact ⟨x, x1, x4.trans (by norm_num [depthErr])⟩

/-- C121. A beam that runs between the end points of a line, not too close to one of them, at a sensor to which the line
appears shorter than half a turn, sees the line: its range is the nearer of what it was before and the distance to the line up
to `depthErr`. -/
theorem C121_seen (hF : Accurate u v F) (hu : u ≤ 1 / 1000) (hv : v ≤ 1 / 1000) {l : LRF} (h : RoundedFine u F l) {p1 p2 : Vec2}
    (n1 : ¬ (p1.x = 0 ∧ p1.y = 0)) (n2 : ¬ (p2.x = 0 ∧ p2.y = 0))
    (hR : l.rangeMax ≤ 0 ∨ ((1 + 40 * u) * p1.length2 ≤ l.rangeMax ^ 2 ∧ (1 + 40 * u) * p2.length2 ≤ l.rangeMax ^ 2))
    (a1 : l.aMin ≤ atan2 p1.y p1.x) {j : ℕ} (hj : j < l.numBeams)
    (b1 : atan2 p1.y p1.x + 50 * u < beamAngle l.aMin l.aMax l.numBeams j)
    (b2 : beamAngle l.aMin l.aMax l.numBeams j ≤ atan2 p2.y p2.x - 50 * u)
    (b3 : atan2 p2.y p2.x - atan2 p1.y p1.x + 2 * spacing l + 120 * u ≤ Real.pi)
    {res : RenderResult} (hl : res.ranges.length = l.numBeams) :
    ∃ res' d, renderLine F l res p1 p2 = .ok res' ∧ 0 < d ∧
      OnSeg p1 p2 ⟨d * Real.cos (beamAngle l.aMin l.aMax l.numBeams j), d * Real.sin (beamAngle l.aMin l.aMax l.numBeams j)⟩ ∧
      ∀ κ, 0 < κ → 5 * dirErr u l.aMin l.aMax j ≤ κ →
        κ * (|(p2 - p1).x| + |(p2 - p1).y|) ≤ |(dir (beamAngle l.aMin l.aMax l.numBeams j)).cross (p2 - p1)| →
        (7 * u * max |p1.x| |p1.y| + 5 * dirErr u l.aMin l.aMax j * d) / κ < d →
        ∃ x : ℝ, 0 < x ∧ |x - d| ≤ depthErr u v (dirErr u l.aMin l.aMax j) (max |p1.x| |p1.y|) κ d ∧
          ∀ old, res.ranges[j]? = some old → ∃ new, res'.ranges[j]? = some new ∧ IsNearest old {(x : EReal)} new := by
  have hu0 := relErr_nonneg' hF.rnd
  have hsp := spacing_pos h.order
  obtain ⟨A, hA⟩ : ∃ A, A = beamAngle l.aMin l.aMax l.numBeams j := ⟨_, rfl⟩
  obtain ⟨ρ, r1, r2, r3⟩ := polar_form n1
  obtain ⟨σ, s1, s2, s3⟩ := polar_form n2
  rw [← hA] at b1 b2
  have c : 0 < p1.cross p2 := by
    rw [cross_polar r2 r3 s2 s3]
    exact mul_pos (mul_pos r1 s1) (Real.sin_pos_of_pos_of_lt_pi (by linarith) (by linarith))
  have c1 : 0 ≤ p1.cross (dir A) := by
    rw [cross_polar (q := dir A) (σ := 1) (β := A) r2 r3 (one_mul _).symm (one_mul _).symm]
    exact mul_nonneg (by linarith) (Real.sin_nonneg_of_nonneg_of_le_pi (by linarith) (by linarith))
  have c2 : 0 ≤ (dir A).cross p2 := by
    rw [cross_polar (p := dir A) (ρ := 1) (α := A) (one_mul _).symm (one_mul _).symm s2 s3]
    exact mul_nonneg (by linarith) (Real.sin_nonneg_of_nonneg_of_le_pi (by linarith) (by linarith))
  have c3 : ¬ ((dir A).x = 0 ∧ (dir A).y = 0) := by
    rintro ⟨h1, h2⟩
    have := Real.sin_sq_add_cos_sq A
    simp only [dir] at h1 h2
    rw [h1, h2] at this
    norm_num at this
  obtain ⟨d1, d2, d3⟩ := beam_hits c c3 c1 c2
  have hs : 0 < |(p2 - p1).x| + |(p2 - p1).y| := by
    by_contra hs
    have hx : (p2 - p1).x = 0 := abs_eq_zero.1 (by linarith [abs_nonneg (p2 - p1).x, abs_nonneg (p2 - p1).y])
    have hy : (p2 - p1).y = 0 := abs_eq_zero.1 (by linarith [abs_nonneg (p2 - p1).x, abs_nonneg (p2 - p1).y])
    simp only [Vec2.cross, hx, hy, mul_zero, sub_zero, lt_irrefl] at d1
  rw [hA] at b1 b2
  obtain ⟨res', e1, -, e3⟩ := line_drawn hF hu h n1 n2 hs hR a1 hj b1 b2 b3 res hl
  rw [hA] at d2 d3
  refine ⟨res', _, e1, d2, d3, fun κ hκ hη hk hd => ?_⟩
  obtain ⟨y, y1, y2, y3⟩ := hit_err hF hu hv h hj hκ hη (dirErr_le hu0 hu h hj) hs hk
  have hy : 0 < y := by
    rw [abs_of_pos d2] at y2
    linarith [(abs_le.1 y2).1]
  rw [if_pos hy] at y1
  have hx := (rel_pos hF.toF hv).2 hy
  refine ⟨F.toF y, hx, y3, fun old ho => ?_⟩
  rw [y1, ho] at e3
  refine ⟨_, e3, ?_⟩
  have := combine_nearest (old := old) (new := old) (d := ((F.toF y : ℝ) : EReal)) (ds := ∅) (by simp)
    ⟨fun _ => rfl, fun h => absurd h (by simp)⟩
  rwa [insert_empty_eq] at this

/-- The middle beam sees a line whose end points have the angles -0.5 and 0.5 and the distance 1. -/
example : ∃ l res, ∃ x : ℝ, RoundedFine (1 / 2 ^ 53) doubleLib l ∧
    renderLine doubleLib l ⟨0, 0, [0, 0, 0, 0, 0]⟩ ⟨Real.cos (1 / 2), -Real.sin (1 / 2)⟩ ⟨Real.cos (1 / 2), Real.sin (1 / 2)⟩ =
      .ok res ∧ res.ranges[2]? = some (x : EReal) ∧ |x - Real.cos (1 / 2)| ≤ 1.2e-7 := by
  obtain ⟨l, -, a1, a2, a3, a4, f⟩ := C121_five
  have hpi := Real.pi_gt_three
  have hs : spacing l = 1 / 2 := by rw [spacing, a1, a2, a3]; norm_num
  have e : beamAngle l.aMin l.aMax l.numBeams 2 = 0 := by rw [a1, a2, a3]; norm_num [beamAngle]
  have e' : dirErr (1 / 2 ^ 53) l.aMin l.aMax 2 = 13 / 2 ^ 53 := by rw [a1, a2]; norm_num [dirErr, beamErr]
  have hc1 : 7 / 8 ≤ Real.cos (1 / 2) := (Real.one_sub_sq_div_two_le_cos (x := 1 / 2)).trans' (by norm_num)
  have hc2 := Real.cos_le_one (1 / 2)
  have hs1 : 0 < Real.sin (1 / 2) := Real.sin_pos_of_pos_of_lt_pi (by norm_num) (by linarith)
  have hs2 := Real.sin_le_one (1 / 2)
  have t2 : atan2 (Real.sin (1 / 2)) (Real.cos (1 / 2)) = 1 / 2 := by
    have := atan2_polar (r := 1) (θ := 1 / 2) one_pos ⟨by linarith, by linarith⟩
    rwa [one_mul, one_mul] at this
  have t1 : atan2 (-Real.sin (1 / 2)) (Real.cos (1 / 2)) = -(1 / 2) := by
    have := atan2_polar (r := 1) (θ := -(1 / 2)) one_pos ⟨by linarith, by linarith⟩
    rwa [one_mul, one_mul, Real.sin_neg, Real.cos_neg] at this
  have hl : ∀ y, y = Real.sin (1 / 2) ∨ y = -Real.sin (1 / 2) →
      (1 + 40 * (1 / 2 ^ 53)) * (⟨Real.cos (1 / 2), y⟩ : Vec2).length2 ≤ l.rangeMax ^ 2 := by
    intro y hy
    have : (⟨Real.cos (1 / 2), y⟩ : Vec2).length2 = 1 := by
      have h1 := Real.sin_sq_add_cos_sq (1 / 2)
      rcases hy with rfl | rfl <;> simp only [Vec2.length2] <;> linarith
    rw [this, a4]
    norm_num
  obtain ⟨res, d, r1, -, ⟨t, -, -, q1, -⟩, r4⟩ := C121_seen C121_library (by norm_num) (by norm_num) f
    (p1 := ⟨Real.cos (1 / 2), -Real.sin (1 / 2)⟩) (p2 := ⟨Real.cos (1 / 2), Real.sin (1 / 2)⟩) (j := 2)
    (res := ⟨0, 0, [0, 0, 0, 0, 0]⟩) (fun h => by simp only at h; linarith [h.1]) (fun h => by simp only at h; linarith [h.1])
    (.inr ⟨hl _ (.inr rfl), hl _ (.inl rfl)⟩) (by rw [a1, t1]; norm_num) (by rw [a3]; norm_num) (by rw [e, t1]; norm_num)
    (by rw [e, t2]; norm_num) (by rw [t1, t2, hs]; linarith) (by rw [a3]; rfl)
  rw [e] at q1 r4
  rw [e'] at r4
  have hd : d = Real.cos (1 / 2) := by simpa using q1
  have hm : max |Real.cos (1 / 2)| |-Real.sin (1 / 2)| ≤ 1 :=
    max_le (by rw [abs_of_pos (by linarith)]; exact hc2) (by rw [abs_neg, abs_of_pos hs1]; exact hs2)
  obtain ⟨x, x1, x2, x3⟩ := r4 1 one_pos (by norm_num)
    (by simp only [dir, Vec2.cross, Vec2.sub_x, Vec2.sub_y, Real.cos_zero, Real.sin_zero, sub_self, abs_zero]
        rw [show (1 : ℝ) * (Real.sin (1 / 2) - -Real.sin (1 / 2)) - 0 * 0 = 2 * Real.sin (1 / 2) by ring,
          show Real.sin (1 / 2) - -Real.sin (1 / 2) = 2 * Real.sin (1 / 2) by ring]
        linarith)
    (by rw [hd]; simp only; linarith)
  obtain ⟨new, n1, n2⟩ := x3 0 rfl
  obtain ⟨n3, -⟩ := n2.2 (by simp)
  have hn : new = (x : EReal) := by simpa using n3
  refine ⟨l, res, x, f, r1, by rw [n1, hn], ?_⟩
  rw [hd] at x2
  refine x2.trans ?_
  unfold depthErr
  rw [abs_of_pos (by linarith : 0 < Real.cos (1 / 2))] at hm ⊢
  simp only
  linarith

/-- C121. The table and the index are computed differently: the sensor with nine beams from 1 to `3 + 2^-51` has its beam 1
at the angle 1.25, yet the index of the angle 1.25 counts only beam 0. -/
theorem C121_own_beam : ∃ l, run doubleLib LRF.new [.rangeLimits 0 30, .angleLimits 1 (3 + 2 ^ (-51 : ℤ)), .numBeams 9] = .ok l ∧
    l.angles[1]? = some (5 / 4) ∧ getAngleUpperIndexRaw doubleLib l (5 / 4) = .ok 1 := by
  obtain ⟨l, h, a1, a2, a3, -, f⟩ := C121_setup C121_library (by norm_num) 0 30 (n := 9) (a := 1) (b := 3 + 2 ^ (-51 : ℤ))
    (by norm_num) (by norm_num) (by norm_num) (by norm_num) (by norm_num) (by norm_num)
  obtain ⟨i1, i2, -, -⟩ := f.inv C121_library (by norm_num) f.beams f.order
  have grid : ∀ (m k : ℤ) {x : ℝ}, x = m * 2 ^ k → |m| ≤ 2 ^ 53 → toDouble x = x := by
    intro m k x hx hm
    rw [hx]
    exact toDouble_grid hm
  have e : l.angleIncr = (2 ^ 52 + 1 : ℤ) * 2 ^ (-54 : ℤ) := by
    rw [i1, a1, a2, a3]
    simp only [doubleLib]
    have g1 : toDouble (3 + 2 ^ (-51 : ℤ) - 1) = 3 + 2 ^ (-51 : ℤ) - 1 := grid (2 ^ 52 + 1) (-51) (by norm_num) (by norm_num)
    have g2 : toDouble ((3 + 2 ^ (-51 : ℤ) - 1) / ((max (9 - 1) 1 : ℕ) : ℝ)) = (3 + 2 ^ (-51 : ℤ) - 1) / ((max (9 - 1) 1 : ℕ) : ℝ) :=
      grid (2 ^ 52 + 1) (-54) (by norm_num) (by norm_num)
    rw [g1, g2]
    norm_num
  refine ⟨l, h, ?_, ?_⟩
  · rw [i2, a3, a1, e]
    simp only [beamAngles, doubleLib, List.getElem?_cons_succ, List.getElem?_cons_zero, Option.some.injEq]
    rw [toDouble_eq (-52) (m := 5 * 2 ^ 50) (by norm_num) (by norm_num) (by norm_num [abs_lt])]
    norm_num
  · have q1 : toDouble ((5 / 4 : ℝ) - 1) = 1 / 4 := by
      rw [grid 1 (-2) (by norm_num) (by norm_num)]
      norm_num
    have q2 : toDouble ((1 / 4 : ℝ) / ((2 ^ 52 + 1 : ℤ) * 2 ^ (-54 : ℤ))) = (2 ^ 53 - 2 : ℤ) * 2 ^ (-53 : ℤ) :=
      toDouble_eq (-53) (by norm_num) (by norm_num) (by norm_num [abs_lt])
    unfold getAngleUpperIndexRaw
    rw [if_neg (by rw [e]; norm_num), a1, e]
    simp only [doubleLib]
    rw [q1, q2]
    have : trunc (((2 ^ 53 - 2 : ℤ) : ℝ) * 2 ^ (-53 : ℤ)) = 0 := by
      unfold trunc
      rw [if_pos (by norm_num), Int.floor_eq_iff]
      norm_num
    unfold castInt
    rw [this]
    norm_num [intOp, bind, Except.bind]

end Geo
