import Verif.Lemmas.SingleComposite
import Verif.Props.Single
import Verif.Props.Composite

/-!
# Property C108: the ray test of a composite in single precision
-/

namespace Geo

open Spec

/-- Without rounding the functions are those of `Model/Composite`. -/
theorem C108_exact (c : Composite) (r : Ray) (t0 t1 d0 : ℝ) :
    c.intersectRayF (fun x => x) r t0 t1 d0 = c.intersectRay r t0 t1 d0 :=
  Composite.intersectRayF_id c r t0 t1 d0

/-- C108: in single precision, for parts with candidate distances and a `float` upper bound. The composite is hit exactly if its bounding
box is hit and some part has a candidate below the bound. The distance is then the candidate of some part, below the bound, and no
candidate of any part is smaller once both are rounded to `float`. If all candidates are `float`s it is the least candidate. -/
theorem C108_nearest (l : List (ShapeObj × Transform3)) (hm : ∀ x ∈ l, GoodMesh x.1.mesh) (r : Ray)
    (t0 t1 d0 : ℝ) (ht1 : toFloat t1 = t1) (E : ShapeObj × Transform3 → Option ℝ)
    (hE : ∀ x ∈ l, Candidate x.1
      (Ray.new (x.2.inverse.apply r.origin) (x.2.inverse.R.mulVec r.direction)) t0 (E x)) :
    ∃ c res, Composite.build l = .ok c ∧ c.intersectRayF toFloat r t0 t1 d0 = .ok res ∧
      (res.1 = true ↔ (c.bb.intersectRayF toFloat r t0 t1 d0).1 = true ∧ ∃ x ∈ l, ∃ d, E x = some d ∧ d < t1) ∧
      (res.1 = true → res.2 < t1 ∧ (∃ x ∈ l, E x = some res.2) ∧
        (∀ x ∈ l, ∀ d, E x = some d → toFloat res.2 ≤ toFloat d) ∧
        ((∀ x ∈ l, ∀ d, E x = some d → toFloat d = d) → IsLeast {d | ∃ x ∈ l, E x = some d} res.2)) := by
  obtain ⟨c, hc, -⟩ := Composite.build_from l hm Composite.new
  obtain ⟨-, -, hsh, -⟩ := Composite.bb_eq hm hc
  obtain ⟨res, h1, h2, -, h4, -, h6⟩ := Composite.rayLoopF_map toFloat_mono toFloat_idem r t0 l E hE false t1
  rw [← hsh] at h1
  rw [ht1] at h2 h6
  by_cases hb : (c.bb.intersectRayF toFloat r t0 t1 d0).1 = true
  · cases hr : res.1 with
    | false =>
      refine ⟨c, (false, (c.bb.intersectRayF toFloat r t0 t1 d0).2), hc, ?_, ?_, by simp⟩
      · unfold Composite.intersectRayF
        simp [hb, h1, hr, bind, Except.bind, pure, Except.pure]
      · rw [hr] at h2
        simp only [hb, true_and]
        simpa using h2
    | true =>
      refine ⟨c, (true, res.2), hc, ?_, ?_, ?_⟩
      · unfold Composite.intersectRayF
        simp [hb, h1, hr, bind, Except.bind, pure, Except.pure]
      · rw [hr] at h2
        simp only [hb, true_and]
        simpa using h2
      · intro _
        obtain ⟨g1, g2⟩ := h6 hr rfl
        refine ⟨g1, g2, h4, fun hf => ⟨g2, ?_⟩⟩
        rintro d ⟨x, hx, hd⟩
        obtain ⟨y, hy, hyd⟩ := g2
        have := h4 x hx d hd
        rwa [hf x hx d hd, hf y hy _ hyd] at this
  · refine ⟨c, (false, (c.bb.intersectRayF toFloat r t0 t1 d0).2), hc, ?_, by simp [hb], by simp⟩
    unfold Composite.intersectRayF
    simp [hb]

/-- C108: posed boxes in single precision, for a ray that is not parallel to a face of any part or to a coordinate plane. If the line of
the ray is in a part from parameter `a` to parameter `b`, the rounded `b` is after the start of the range and the rounded `a` before its
end, then the composite is hit, at most at the rounded `a`. And if the composite is hit, there is a part, hit itself, with a parameter in
the range at which the line is in the part up to a relative error of `2^-23` of the parameter, and the distance is the rounded parameter at
which the line enters that part, if it enters it at all. -/
theorem C108_boxes (l : List ((Vec3 × Vec3) × Transform3)) (hp : ∀ x ∈ l, Proper x.1.1 x.1.2)
    (hr : ∀ x ∈ l, Rigid x.2) (o d u : Vec3) (hu : UnitAlong d u) (hw : Oblique u)
    (hl : ∀ x ∈ l, ∀ w, x.2.R.mulVec w = u → Oblique w)
    (t0 t1 d0 : ℝ) (ht : t0 < t1) (ht1 : toFloat t1 = t1) :
    ∃ c res, Composite.build (l.map fun x => ((Box.new x.1.1 x.1.2).toObjF toFloat, x.2)) = .ok c ∧
      c.intersectRayF toFloat (Ray.new o d) t0 t1 d0 = .ok res ∧
      (∀ x ∈ l, ∀ a b, IsLeast {s | Posed x.2 (InBox x.1.1 x.1.2) (along o u s)} a →
        IsGreatest {s | Posed x.2 (InBox x.1.1 x.1.2) (along o u s)} b → t0 < toFloat b → toFloat a < t1 →
        res.1 = true ∧ res.2 ≤ toFloat a) ∧
      (res.1 = true → res.2 < t1 ∧ ∃ x ∈ l,
        (∃ s e, t0 < s ∧ s < t1 ∧ e = |s| / 2 ^ 23 ∧
          Posed x.2 (InBox ⟨x.1.1.x - e, x.1.1.y - e, x.1.1.z - e⟩ ⟨x.1.2.x + e, x.1.2.y + e, x.1.2.z + e⟩) (along o u s)) ∧
        ∀ a b, IsLeast {s | Posed x.2 (InBox x.1.1 x.1.2) (along o u s)} a →
          IsGreatest {s | Posed x.2 (InBox x.1.1 x.1.2) (along o u s)} b → t0 < toFloat b ∧ res.2 = toFloat a) := by
  classical
  set L := l.map fun x => ((Box.new x.1.1 x.1.2).toObjF toFloat, x.2) with hL
  have hgood : ∀ y ∈ L, GoodMesh y.1.mesh := by
    intro y hy
    obtain ⟨x, hx, rfl⟩ := List.mem_map.1 hy
    exact box_good _ _
  have hdir : (Ray.new o d).direction = u := unitAlong_normalized hu
  have horig : (Ray.new o d).origin = o := rfl
  have candL : ∀ y ∈ L, ∃ e, Candidate y.1
        (Ray.new (y.2.inverse.apply o) (y.2.inverse.R.mulVec u)) t0 e := by
    intro y hy
    obtain ⟨x, hx, rfl⟩ := List.mem_map.1 hy
    exact box_candidateF _ _ _ _
  choose! E hE using candL
  -- the frame of a part
  have frame : ∀ x ∈ l, ∀ lo hi t, Posed x.2 (InBox lo hi) (along o u t) ↔
        InBox lo hi (along (x.2.inverse.apply o) (x.2.inverse.R.mulVec u) t) := by
    intro x hx lo hi t
    have e1 : along (x.2.inverse.apply o) (x.2.inverse.R.mulVec u) t =
        x.2.inverse.apply (along o u t) := by
      ext <;> simp [along, Transform3.apply, Mat3.mulVec] <;> ring
    rw [e1]
    constructor
    · rintro ⟨q, hq, hb⟩
      rw [← hq, (C02_rigid_inverse (hr x hx)).2.2.1]; exact hb
    · intro h
      exact ⟨_, (C02_rigid_inverse (hr x hx)).2.2.2.1 _, h⟩
  have box : ∀ x ∈ l, ∀ t1, _ := fun x hx t1 =>
    C91_box x.1.1 x.1.2 (x.2.inverse.apply o) (x.2.inverse.R.mulVec u) (x.2.inverse.R.mulVec u) t0 t1 0 (hp x hx)
      ⟨by rw [Composite.rot_unit (hr x hx)]; exact hu.1, 1, by norm_num, by ring, by ring, by ring⟩
      (hl x hx _ (Composite.rot_cancel (hr x hx) u))
  have hval : ∀ x ∈ l, ∀ t1 res, (Box.new x.1.1 x.1.2).intersectRayF toFloat
        (Ray.new (x.2.inverse.apply o) (x.2.inverse.R.mulVec u)) t0 t1 0 = res →
      (res.1 = true ↔ ∃ s, E ((Box.new x.1.1 x.1.2).toObjF toFloat, x.2) = some s ∧ s < t1) ∧
      (res.1 = true → E ((Box.new x.1.1 x.1.2).toObjF toFloat, x.2) = some res.2) := by
    rintro x hx t1 _ rfl
    obtain ⟨res, h1, h2, h3⟩ := hE _ (List.mem_map.2 ⟨x, hx, rfl⟩) t1 0
    simp only [Box.toObjF, Except.ok.injEq] at h1
    subst h1
    exact ⟨h2, h3⟩
  -- the parameter at which the line enters a part
  have enter : ∀ x ∈ l, ∀ a b, IsLeast {s | Posed x.2 (InBox x.1.1 x.1.2) (along o u s)} a →
      IsGreatest {s | Posed x.2 (InBox x.1.1 x.1.2) (along o u s)} b →
      (∀ s, E ((Box.new x.1.1 x.1.2).toObjF toFloat, x.2) = some s ↔ t0 < toFloat b ∧ s = toFloat a) := by
    intro x hx a b ha hb s
    simp only [frame x hx] at ha hb
    obtain ⟨k1, k2⟩ := (box x hx (toFloat a + 1)).1 a b ha hb
    obtain ⟨v1, v2⟩ := hval x hx (toFloat a + 1) _ rfl
    constructor
    · intro h
      obtain ⟨j1, j2⟩ := (box x hx (s + 1)).1 a b ha hb
      obtain ⟨w1, w2⟩ := hval x hx (s + 1) _ rfl
      have hw := w1.2 ⟨s, h, by linarith⟩
      have := w2 hw
      rw [h, j2] at this
      exact ⟨(j1.1 hw).1, by simpa using this⟩
    · rintro ⟨h, rfl⟩
      rw [← k2]
      exact v2 (k1.2 ⟨h, by linarith⟩)
  obtain ⟨c, res, hc, hres, hiff, hleast⟩ := C108_nearest L hgood (Ray.new o d) t0 t1 d0 ht1 E
    (by rw [hdir, horig]; exact hE)
  have hflt : ∀ y ∈ L, ∀ s, E y = some s → toFloat s = s := by
    intro y hy s hs
    obtain ⟨x, hx, rfl⟩ := List.mem_map.1 hy
    obtain ⟨w1, w2⟩ := hval x hx (s + 1) _ rfl
    have := w1.2 ⟨s, hs, by linarith⟩
    have e := w2 this
    rw [hs] at e
    simp only [Option.some.injEq] at e
    rw [e]
    exact boxF_float _ _ _ _ this
  refine ⟨c, res, hc, hres, ?_, ?_⟩
  · intro x hx a b ha hb h0 h1
    have hEx : E ((Box.new x.1.1 x.1.2).toObjF toFloat, x.2) = some (toFloat a) :=
      (enter x hx a b ha hb _).2 ⟨h0, rfl⟩
    have hmemL : ((Box.new x.1.1 x.1.2).toObjF toFloat, x.2) ∈ L := List.mem_map.2 ⟨x, hx, rfl⟩
    have hyes : res.1 = true := by
      rw [hiff]
      refine ⟨?_, _, hmemL, _, hEx, h1⟩
      obtain ⟨hin, -, -, hbb⟩ := Composite.bb_eq hgood hc
      have hmem : ∀ s, Posed x.2 (InBox x.1.1 x.1.2) (along o u s) → InBox c.bb.lo c.bb.hi (along o u s) := by
        rintro s ⟨q, hq, hqb⟩
        rw [← hq]
        have h1 := (box_hull hqb).apply x.2
        apply h1.inBox
        intro y hy
        exact hin y (Composite.mem_posed (List.mem_map.2 ⟨x, hx, rfl⟩) hy)
      have ma := hmem a ha.1
      have hprop : Proper c.bb.lo c.bb.hi := ⟨ma.1.trans ma.2.1, ma.2.2.1.trans ma.2.2.2.1,
        ma.2.2.2.2.1.trans ma.2.2.2.2.2⟩
      obtain ⟨a', b', ha', hb'⟩ := box_span hw ma
      rw [hbb, ((C91_box _ _ o d u t0 t1 d0 hprop hu hw).1 a' b' ha' hb').1]
      exact ⟨h0.trans_le (toFloat_mono (hb'.2 (hmem b hb.1))), lt_of_le_of_lt (toFloat_mono (ha'.2 ma)) h1⟩
    exact ⟨hyes, ((hleast hyes).2.2.2 hflt).2 ⟨_, hmemL, hEx⟩⟩
  · intro hyes
    obtain ⟨hlt, ⟨y, hy, hyE⟩, -⟩ := hleast hyes
    refine ⟨hlt, ?_⟩
    obtain ⟨x, hx, rfl⟩ := List.mem_map.1 hy
    refine ⟨x, hx, ?_, fun a b ha hb => (enter x hx a b ha hb _).1 hyE⟩
    obtain ⟨s, e, h1, h2, h3, h4⟩ := (box x hx t1).2 ht ((hval x hx t1 _ rfl).1.2 ⟨_, hyE, hlt⟩)
    exact ⟨s, e, h1, h2, h3, (frame x hx _ _ s).2 h4⟩

/-- C108 case: a diagonal ray from a corner through the second of two cubes meets the hypotheses: the composite is hit, at 0. -/
example : ∃ c res, Composite.build ([((⟨20, 20, 20⟩, ⟨24, 24, 24⟩), Transform3.identity),
      ((⟨0, 0, 0⟩, ⟨4, 4, 4⟩), Transform3.identity)].map fun x => ((Box.new x.1.1 x.1.2).toObjF toFloat, x.2)) = .ok c ∧
    c.intersectRayF toFloat (Ray.new ⟨0, 0, 0⟩ ⟨1, 2, 2⟩) 0 8 0 = .ok res ∧ res.1 = true ∧ res.2 ≤ 0 := by
  have hid : Rigid Transform3.identity := by
    unfold Rigid; rw [orth_iff]; norm_num [Transform3.identity, Mat3.identity]
  have posed : ∀ lo hi p, Posed Transform3.identity (InBox lo hi) p ↔ InBox lo hi p := by
    intro lo hi p
    have : ∀ q, Transform3.identity.apply q = q := by
      intro q; ext <;> simp [Transform3.identity, Mat3.identity, Transform3.apply, Mat3.mulVec]
    constructor
    · rintro ⟨q, rfl, h⟩
      rwa [this]
    · intro h
      exact ⟨p, this p, h⟩
  obtain ⟨c, res, hc, hr, hi, -⟩ := C108_boxes [((⟨20, 20, 20⟩, ⟨24, 24, 24⟩), Transform3.identity),
      ((⟨0, 0, 0⟩, ⟨4, 4, 4⟩), Transform3.identity)] (by
        intro x hx; simp only [List.mem_cons, List.not_mem_nil, or_false] at hx
        rcases hx with rfl | rfl <;> norm_num [Proper]) (by
        intro x hx; simp only [List.mem_cons, List.not_mem_nil, or_false] at hx
        rcases hx with rfl | rfl <;> exact hid) ⟨0, 0, 0⟩ ⟨1, 2, 2⟩ ⟨1 / 3, 2 / 3, 2 / 3⟩
      ⟨by norm_num, 3, by norm_num, by norm_num, by norm_num, by norm_num⟩
      (by norm_num [Oblique, abs_of_pos]) (by
        intro x hx w h
        simp only [List.mem_cons, List.not_mem_nil, or_false] at hx
        have : w = ⟨1 / 3, 2 / 3, 2 / 3⟩ := by
          rw [← h]
          rcases hx with rfl | rfl <;> ext <;> simp [Transform3.identity, Mat3.identity, Mat3.mulVec]
        rw [this]
        norm_num [Oblique, abs_of_pos]) 0 8 0 (by norm_num)
      toFloat_eight
  have := hi ((⟨0, 0, 0⟩, ⟨4, 4, 4⟩), Transform3.identity) (by simp) 0 6
    ⟨by simp only [Set.mem_ofPred_eq, posed]; norm_num [InBox, along],
      fun s hs => by simp only [Set.mem_ofPred_eq, posed] at hs; have := hs.1; simp [along] at this; linarith⟩
    ⟨by simp only [Set.mem_ofPred_eq, posed]; norm_num [InBox, along],
      fun s hs => by simp only [Set.mem_ofPred_eq, posed] at hs; have := hs.2.2.2.1; simp [along] at this; linarith⟩
    (by rw [toFloat_six]; norm_num) (by rw [toFloat_zero]; norm_num)
  rw [toFloat_zero] at this
  exact ⟨c, res, hc, hr, this⟩

open Classical in
/-- A user-defined shape with the mesh of a cube that any ray meets at distance `c` only. (Helper.) -/
noncomputable def shell (c : ℝ) : ShapeObj :=
  { (Box.new ⟨0, 0, 0⟩ ⟨4, 4, 4⟩).toObj with ray := fun _ t0 t1 _ => .ok (decide (t0 < c ∧ c < t1), c) }

theorem shell_candidate (c : ℝ) (r : Ray) {t0 : ℝ} (h : t0 < c) : Candidate (shell c) r t0 (some c) := by
  intro t1 d0
  refine ⟨_, rfl, ?_, ?_⟩
  · simp [h]
  · intro _
    rfl

/-- C108: the rounding in `C108_nearest` cannot be left out. Two parts at different distances: the composite reports whichever was added
last, so its answer depends on the order of insertion and is not always that of the nearest part. -/
theorem C108_sharp : ∃ a b c c', a < b ∧ (∀ r, Candidate (shell a) r 0 (some a) ∧ Candidate (shell b) r 0 (some b)) ∧
    Composite.build [(shell a, Transform3.identity), (shell b, Transform3.identity)] = .ok c ∧
    Composite.build [(shell b, Transform3.identity), (shell a, Transform3.identity)] = .ok c' ∧
    c.intersectRayF toFloat (Ray.new ⟨0, 0, 0⟩ ⟨1, 2, 2⟩) 0 8 0 = .ok (true, b) ∧
    c'.intersectRayF toFloat (Ray.new ⟨0, 0, 0⟩ ⟨1, 2, 2⟩) 0 8 0 = .ok (true, a) := by
  have up : ∀ x : ℝ, 1 + 1 / 2 ^ 24 < x → x < 1 + 1 / 2 ^ 23 → toFloat x = 1 + 1 / 2 ^ 23 := by
    intro x h1 h2
    have hx : 0 < x := by linarith [show (0 : ℝ) < 1 / 2 ^ 24 by norm_num]
    have hlog : Int.log 2 |x| = 0 := by
      apply log_eq
      · rw [abs_of_pos hx]; norm_num at h1 ⊢; linarith
      · rw [abs_of_pos hx]; norm_num at h2 ⊢; linarith
    unfold toFloat
    rw [if_neg hx.ne']
    dsimp only
    rw [hlog]
    have e : x / 2 ^ ((0 : ℤ) - 23) = x * 2 ^ 23 := by
      rw [show (0 : ℤ) - 23 = -((23 : ℕ) : ℤ) by norm_num, zpow_neg, zpow_natCast]
      field_simp
    rw [e]
    have hf : ⌊x * 2 ^ 23⌋ = 2 ^ 23 := by
      rw [Int.floor_eq_iff]
      norm_num at h1 h2 ⊢
      constructor <;> linarith
    have hn : nearestEven (x * 2 ^ 23) = 2 ^ 23 + 1 := by
      unfold nearestEven
      simp only [hf]
      have : (1 : ℝ) / 2 < x * 2 ^ 23 - ((2 ^ 23 : ℤ) : ℝ) := by
        norm_num at h1 ⊢
        linarith
      rw [if_neg (by linarith), if_pos this]
    rw [hn]
    norm_num
  set a : ℝ := 1 + 3 / 2 ^ 25 with ha
  set b : ℝ := 1 + 7 / 2 ^ 26 with hb
  have ra : toFloat a = 1 + 1 / 2 ^ 23 := up a (by rw [ha]; norm_num) (by rw [ha]; norm_num)
  have rb : toFloat b = 1 + 1 / 2 ^ 23 := up b (by rw [hb]; norm_num) (by rw [hb]; norm_num)
  have key : ∀ x y : ℝ, 0 < x → 0 < y → x < 8 → y < toFloat x → ∃ c,
      Composite.build [(shell x, Transform3.identity), (shell y, Transform3.identity)] = .ok c ∧
      c.intersectRayF toFloat (Ray.new ⟨0, 0, 0⟩ ⟨1, 2, 2⟩) 0 8 0 = .ok (true, y) := by
    intro x y hx hy hx8 hxy
    have hgood : ∀ z ∈ [(shell x, Transform3.identity), (shell y, Transform3.identity)], GoodMesh z.1.mesh := by
      intro z hz
      simp only [List.mem_cons, List.not_mem_nil, or_false] at hz
      rcases hz with rfl | rfl <;> exact box_good _ _
    obtain ⟨c, hc, -⟩ := Composite.build_from _ hgood Composite.new
    refine ⟨c, hc, ?_⟩
    obtain ⟨hin, -, hsh, hbb⟩ := Composite.bb_eq hgood hc
    have hu : UnitAlong ⟨1, 2, 2⟩ ⟨1 / 3, 2 / 3, 2 / 3⟩ := ⟨by norm_num, 3, by norm_num, by norm_num, by norm_num, by norm_num⟩
    have hw : Oblique ⟨1 / 3, 2 / 3, 2 / 3⟩ := by norm_num [Oblique, abs_of_pos]
    have hmem : ∀ q, InBox ⟨0, 0, 0⟩ ⟨4, 4, 4⟩ q → InBox c.bb.lo c.bb.hi q := by
      intro q hq
      have h1 := (box_hull hq).apply Transform3.identity
      have e : Transform3.identity.apply q = q := by
        ext <;> simp [Transform3.identity, Mat3.identity, Transform3.apply, Mat3.mulVec]
      rw [e] at h1
      apply h1.inBox
      intro z hz
      exact hin z (Composite.mem_posed (List.mem_cons_self) hz)
    have ma := hmem ⟨0, 0, 0⟩ (by norm_num [InBox])
    have mb := hmem ⟨2, 4, 4⟩ (by norm_num [InBox])
    have ma' : InBox c.bb.lo c.bb.hi (along ⟨0, 0, 0⟩ ⟨1 / 3, 2 / 3, 2 / 3⟩ 0) := by simpa [along] using ma
    have mb' : InBox c.bb.lo c.bb.hi (along ⟨0, 0, 0⟩ ⟨1 / 3, 2 / 3, 2 / 3⟩ 6) := by
      have : along ⟨0, 0, 0⟩ ⟨1 / 3, 2 / 3, 2 / 3⟩ 6 = (⟨2, 4, 4⟩ : Vec3) := by norm_num [along]
      rw [this]; exact mb
    have hprop : Proper c.bb.lo c.bb.hi := ⟨ma.1.trans ma.2.1, ma.2.2.1.trans ma.2.2.2.1,
      ma.2.2.2.2.1.trans ma.2.2.2.2.2⟩
    obtain ⟨a', b', ha', hb'⟩ := box_span hw ma'
    have hhit : (c.bb.intersectRayF toFloat (Ray.new ⟨0, 0, 0⟩ ⟨1, 2, 2⟩) 0 8 0).1 = true := by
      rw [hbb, ((C91_box _ _ _ _ _ 0 8 0 hprop hu hw).1 a' b' ha' hb').1]
      have h6 := toFloat_mono (hb'.2 mb')
      have h0 := toFloat_mono (ha'.2 ma')
      rw [toFloat_six] at h6
      rw [toFloat_zero] at h0
      constructor <;> linarith
    unfold Composite.intersectRayF
    rw [hsh]
    simp [Composite.rayLoopF, shell, hhit, bind, Except.bind, pure, Except.pure, hx, hy, toFloat_eight, hx8, hxy]
  have a0 : 0 < a := by rw [ha]; norm_num
  have b0 : 0 < b := by rw [hb]; norm_num
  obtain ⟨c, hc, h⟩ := key a b a0 b0 (by rw [ha]; norm_num) (by rw [ra, hb]; norm_num)
  obtain ⟨c', hc', h'⟩ := key b a b0 a0 (by rw [hb]; norm_num) (by rw [rb, ha]; norm_num)
  exact ⟨a, b, c, c', by rw [ha, hb]; norm_num, fun r => ⟨shell_candidate a r a0, shell_candidate b r b0⟩, hc, hc', h, h'⟩

end Geo
