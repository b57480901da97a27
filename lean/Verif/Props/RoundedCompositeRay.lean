import Verif.Lemmas.RoundedRay
import Verif.Lemmas.SingleComposite
import Verif.Props.RoundedComposite

/-!
# The ray query of composites in floating point arithmetic
-/

namespace Geo

open Spec Matrix Rounded

/-- Without rounding the query is the one of `Model/Composite`. -/
theorem C129_exact (c : Composite) (o d : Vec3) (t0 t1 d0 : ℝ) :
    Rounded.compositeRay id id c (rayNew id o d) t0 t1 d0 = c.intersectRay (Ray.new o d) t0 t1 d0 := by
  have e : ∀ (r : Ray) (l : List (ShapeObj × Transform3)) (hit : Bool) (md : ℝ),
      Rounded.rayLoop id id r t0 l hit md = Composite.rayLoop r t0 l hit md := by
    intro r l
    induction l with
    | nil => intro hit md; rfl
    | cons x l ih =>
      intro hit md
      show (do
        let q ← x.1.ray (rayNew id (Rounded.apply id x.2 r.origin) (Rounded.mulVec id x.2.R r.direction)) t0 (id md) 0
        if q.1 then Rounded.rayLoop id id r t0 l true q.2 else Rounded.rayLoop id id r t0 l hit md) = (do
        let q ← x.1.ray (Ray.new (x.2.apply r.origin) (x.2.R.mulVec r.direction)) t0 md 0
        if q.1 then Composite.rayLoop r t0 l true q.2 else Composite.rayLoop r t0 l hit md)
      simp only [ih]
      rfl
  unfold Rounded.compositeRay Composite.intersectRay
  simp only [e]
  rfl

/-- C129: the ray query of a composite of boxes. Write `m s` for the margin at the parameter `s`. If a hit is reported, the point
of the ray at the reported distance is within the margin of some part, the distance is below the bound, and the ray is within
the margin of that part at a parameter between the bounds that is not below the reported distance. If the ray is inside a part by
the margin at a parameter between the bounds, a hit is reported, with a distance that is at most this parameter. -/
theorem C129_boxes {u v : ℝ} {rnd toF : ℝ → ℝ} (h : RelErr u rnd) (hm : Monotone rnd) (hF : RelErr v toF) (hmF : Monotone toF)
    (hid : ∀ x, toF (toF x) = toF x) (hu : u ≤ 1 / 1000) (hv : v ≤ 1 / 1000) {δ ρ τ : ℝ} (hδ : δ ≤ 1 / 100) (hρ : 0 ≤ ρ)
    (l : List ((Vec3 × Vec3) × Transform3))
    (hl : ∀ x ∈ l, Proper x.1.1 x.1.2 ∧ (∀ q, InBox x.1.1 x.1.2 q → len (V q) ≤ ρ) ∧ NearlyOrthogonal δ x.2.R ∧
      len (V x.2.t) ≤ τ) :
    ∃ c, Rounded.build rnd (l.map fun x => (Rounded.boxObj rnd toF (Box.new x.1.1 x.1.2), x.2)) = .ok c ∧
      ∀ o d e : Vec3, UnitAlong d e →
      1e-9 * (1 + 8 * u) ≤ |e.x| ∧ 1e-9 * (1 + 8 * u) ≤ |e.y| ∧ 1e-9 * (1 + 8 * u) ≤ |e.z| →
      (∀ x ∈ l, ∀ g, x.2.R.mulVec g = e →
        1.1e-9 + 21 * u + 10 * δ ≤ |g.x| ∧ 1.1e-9 + 21 * u + 10 * δ ≤ |g.y| ∧ 1.1e-9 + 21 * u + 10 * δ ≤ |g.z|) →
      ∀ t0 t1 d0, t0 < t1 → toF t1 = t1 →
      ∀ m : ℝ → ℝ, (∀ s, m s = (24 * u + 5 * δ) * (ρ + τ + len (V o)) + (36 * u + 4 * v + 9 * δ) * |s|) →
      ∃ res, Rounded.compositeRay rnd toF c (rayNew rnd o d) t0 t1 d0 = .ok res ∧
        (res.1 = true → res.2 < t1 ∧ ∃ x ∈ l,
          (∃ p, Posed x.2 (InBox x.1.1 x.1.2) p ∧ Spec.dist (along o e res.2) p ≤ m res.2) ∧
          ∃ s, t0 < s ∧ s < t1 ∧ res.2 ≤ s ∧ ∃ p, Posed x.2 (InBox x.1.1 x.1.2) p ∧ Spec.dist (along o e s) p ≤ m s) ∧
        ∀ x ∈ l, ∀ s, t0 < s → s < t1 → (∀ p, Spec.dist (along o e s) p ≤ m s → Posed x.2 (InBox x.1.1 x.1.2) p) →
          res.1 = true ∧ res.2 ≤ s := by
  have hu0 := Rounded.relErr_nonneg h
  have hv0 := Rounded.relErr_nonneg hF
  have hδ' : δ ≤ 1 / 10 := by linarith
  obtain ⟨l', hl'⟩ : ∃ l', l' = l.map fun x => (Rounded.boxObj rnd toF (Box.new x.1.1 x.1.2), x.2) := ⟨_, rfl⟩
  have hok : ∀ x ∈ l', PartOk δ ρ τ x := by
    intro y hy
    rw [hl'] at hy
    obtain ⟨x, hx, rfl⟩ := List.mem_map.1 hy
    obtain ⟨hp, hn, ho, ht⟩ := hl x hx
    refine ⟨box_good _ _, ho, ?_, ht, fun q R => ⟨⟨_, rfl⟩, ⟨_, rfl⟩⟩⟩
    intro c hc
    exact hn c (inBox_corners hp c ((box_trianglesOf _ _ c).1 hc))
  rw [← hl']
  obtain ⟨c, hc, hsh, hbox, hbb, -⟩ := Rounded.build_eq (rnd := rnd) l' (fun x hx => (hok x hx).good)
  refine ⟨c, hc, fun o d e he ho hg t0 t1 d0 ht ht1 m hmm => ?_⟩
  have hsh' : c.shapes = l.map fun x => (Rounded.boxObj rnd toF (Box.new x.1.1 x.1.2), Rounded.inverse rnd x.2) := by
    rw [hsh, hl', List.map_map]
    rfl
  have o0 := len_nonneg (V o)
  have part := fun x (hx : x ∈ l) t => Rounded.part_ray h hm hF hmF hu hv (hl x hx).1 (hl x hx).2.2.1 hδ (o := o) he (hg x hx)
    (m := m) (fun s => by
      have h0 := Rounded.delta_nonneg (hl x hx).2.2.1
      rw [hmm]
      have : (24 * u + 5 * δ) * (len (V o) + len (V x.2.t)) ≤ (24 * u + 5 * δ) * (ρ + τ + len (V o)) :=
        mul_le_mul_of_nonneg_left (by linarith [(hl x hx).2.2.2]) (by positivity)
      linarith) t0 t 0
  obtain ⟨res, h1, h2, h3, h4⟩ := Rounded.rayLoop_spec (rnd := rnd) hid (rayNew rnd o d) t0
    (fun x : (Vec3 × Vec3) × Transform3 => (Rounded.boxObj rnd toF (Box.new x.1.1 x.1.2), Rounded.inverse rnd x.2))
    (fun x t => Rounded.boxRay rnd toF (Box.new x.1.1 x.1.2) (rayNew rnd (Rounded.apply rnd (Rounded.inverse rnd x.2) o)
      (Rounded.mulVec rnd (Rounded.inverse rnd x.2).R (Rounded.normalized rnd d))) t0 t 0)
    (fun x r => (∃ p, Posed x.2 (InBox x.1.1 x.1.2) p ∧ Spec.dist (along o e r) p ≤ m r) ∧
      ∀ t, t0 < t → r < t → ∃ s, t0 < s ∧ s < t ∧ r ≤ s ∧ ∃ p, Posed x.2 (InBox x.1.1 x.1.2) p ∧ Spec.dist (along o e s) p ≤ m s)
    (fun x s => t0 < s ∧ ∀ p, Spec.dist (along o e s) p ≤ m s → Posed x.2 (InBox x.1.1 x.1.2) p) l
    (fun x hx t => rfl)
    (fun x hx t hq => by
      obtain ⟨q1, q2, q3, q4⟩ := (part x hx t).1 hq
      exact ⟨q1, q2, q3, q4⟩)
    (fun x hx s hs t hst => (part x hx t).2 s hs.1 hst hs.2) false t1 ht1
  rw [← hsh'] at h1
  have hcr : Rounded.compositeRay rnd toF c (rayNew rnd o d) t0 t1 d0 =
      if (Rounded.boxRay rnd toF c.bb (rayNew rnd o d) t0 t1 d0).1 then
        (if res.1 then .ok (true, res.2) else .ok (false, (Rounded.boxRay rnd toF c.bb (rayNew rnd o d) t0 t1 d0).2))
      else .ok (false, (Rounded.boxRay rnd toF c.bb (rayNew rnd o d) t0 t1 d0).2) := by
    unfold Rounded.compositeRay
    rw [h1]
    rcases Rounded.boxRay rnd toF c.bb (rayNew rnd o d) t0 t1 d0 with ⟨b, y⟩
    rcases res with ⟨b', y'⟩
    cases b <;> cases b' <;> rfl
  have sound : res.1 = true → res.2 < t1 ∧ ∃ x ∈ l,
          (∃ p, Posed x.2 (InBox x.1.1 x.1.2) p ∧ Spec.dist (along o e res.2) p ≤ m res.2) ∧
          ∃ s, t0 < s ∧ s < t1 ∧ res.2 ≤ s ∧ ∃ p, Posed x.2 (InBox x.1.1 x.1.2) p ∧ Spec.dist (along o e s) p ≤ m s := by
    intro hr
    rcases h3 with h3 | ⟨-, h5, x, hx, h6, h7⟩
    · rw [h3] at hr
      simp at hr
    · exact ⟨h5, x, hx, h6, h7 t1 ht h5⟩
  have bb : ∀ x ∈ l, ∀ s, t0 < s → s < t1 → (∀ p, Spec.dist (along o e s) p ≤ m s → Posed x.2 (InBox x.1.1 x.1.2) p) →
      (Rounded.boxRay rnd toF c.bb (rayNew rnd o d) t0 t1 d0).1 = true := by
    intro x hx s s1 s2 hall
    obtain ⟨hp, hn, hR, ht'⟩ := hl x hx
    have hx' : (Rounded.boxObj rnd toF (Box.new x.1.1 x.1.2), x.2) ∈ l' := by
      rw [hl']
      exact List.mem_map.2 ⟨x, hx, rfl⟩
    have h0 := Rounded.delta_nonneg hR
    have t0' : 0 ≤ τ := (len_nonneg _).trans ht'
    obtain ⟨k, hk⟩ : ∃ k, k = 8 * u * (ρ + τ) := ⟨_, rfl⟩
    have k0 : 0 ≤ k := by rw [hk]; positivity
    have ws : 0 ≤ (8 * u + 2 * v) * |s| := by positivity
    have inn := Rounded.inBox_of_axis (p := along o e s) (m := (8 * u + 2 * v) * |s| + k)
      (lo := ⟨c.bb.lo.x - k, c.bb.lo.y - k, c.bb.lo.z - k⟩) (hi := ⟨c.bb.hi.x + k, c.bb.hi.y + k, c.bb.hi.z + k⟩)
      (by positivity) (fun q hq => by
        obtain ⟨y, hy, hyb⟩ := hall q (hq.trans (by
          rw [hmm, hk]
          have a1 : 0 ≤ u * |s| := by positivity
          have a2 : 0 ≤ v * |s| := by positivity
          have a3 : 0 ≤ δ * |s| := by positivity
          have a4 : 0 ≤ u * (ρ + τ) := by positivity
          have a5 : 0 ≤ u * len (V o) := by positivity
          have a6 : 0 ≤ δ * (ρ + τ + len (V o)) := by positivity
          linarith))
        rw [← hy]
        exact Rounded.hull_inBox h hu hδ' hbb hx' (hok _ hx') (box_hull hyb) hk)
    obtain ⟨i1, i2, i3, i4, i5, i6⟩ := inn
    simp only at i1 i2 i3 i4 i5 i6
    have hpr : Proper c.bb.lo c.bb.hi := by
      refine ⟨?_, ?_, ?_⟩ <;> linarith
    have := (RoundedBox.ray_span h hm hF hmF hu hv (o := o) hpr he ho t0 t1 d0).2 s s1 s2 (by
      refine ⟨?_, ?_, ?_, ?_, ?_, ?_⟩ <;> simp only <;> linarith)
    rw [hbox]
    exact this.1
  have hit : ∀ x ∈ l, ∀ s, t0 < s → s < t1 → (∀ p, Spec.dist (along o e s) p ≤ m s → Posed x.2 (InBox x.1.1 x.1.2) p) →
      res.1 = true ∧ res.2 ≤ s := by
    intro x hx s s1 s2 hall
    have a := h4 x hx s ⟨s1, hall⟩
    refine ⟨?_, a⟩
    rcases h3 with h3 | ⟨h5, -⟩
    · rw [h3] at a
      simp only at a
      linarith
    · exact h5
  rw [hcr]
  by_cases hb : (Rounded.boxRay rnd toF c.bb (rayNew rnd o d) t0 t1 d0).1 = true
  · rw [if_pos hb]
    by_cases hr : res.1 = true
    · rw [if_pos hr]
      exact ⟨_, rfl, fun _ => sound hr, fun x hx s s1 s2 hall => ⟨rfl, (hit x hx s s1 s2 hall).2⟩⟩
    · rw [if_neg hr]
      exact ⟨_, rfl, fun q => by simp at q, fun x hx s s1 s2 hall => absurd (hit x hx s s1 s2 hall).1 hr⟩
  · rw [if_neg hb]
    exact ⟨_, rfl, fun q => by simp at q, fun x hx s s1 s2 hall => absurd (bb x hx s s1 s2 hall) hb⟩

/-- C129 case: a unit cube, and a second one turned by a right angle about z and moved by (3, 0, 0), in `double` and `float`. A ray
passes the first and enters the second after 77 / 12 m = 6.4166… m; the reported distance is between 6.416 m and 6.417 m. -/
example : ∃ c D, Rounded.build toDouble ([((⟨0, 0, 0⟩, ⟨1, 1, 1⟩), ⟨Mat3.identity, ⟨0, 0, 0⟩⟩),
      ((⟨0, 0, 0⟩, ⟨1, 1, 1⟩), ⟨⟨0, -1, 0, 1, 0, 0, 0, 0, 1⟩, ⟨3, 0, 0⟩⟩)].map
        fun x : (Vec3 × Vec3) × Transform3 => (Rounded.boxObj toDouble toFloat (Box.new x.1.1 x.1.2), x.2)) = .ok c ∧
    Rounded.compositeRay toDouble toFloat c (rayNew toDouble ⟨0.5, -2.5, -5.5⟩ ⟨4, 6, 12⟩) 0 8 0 = .ok (true, D) ∧
    6.416 ≤ D ∧ D ≤ 6.417 := by
  have small : ∀ {v : Vec3} {k : ℝ}, 0 ≤ k → v.x ^ 2 + v.y ^ 2 + v.z ^ 2 ≤ k ^ 2 → len (V v) ≤ k := by
    intro v k hk h
    simp only [len, V, Fin.sum_univ_three]
    rw [Real.sqrt_le_left hk]
    simpa using h
  obtain ⟨c, hc, key⟩ := C129_boxes (toF := toFloat) C93_roundings.1 toDouble_mono C93_roundings.2 toFloat_mono toFloat_idem
    (by norm_num) (by norm_num) (δ := 0) (ρ := 2) (τ := 3) (by norm_num)
    (by norm_num) [((⟨0, 0, 0⟩, ⟨1, 1, 1⟩), ⟨Mat3.identity, ⟨0, 0, 0⟩⟩),
      ((⟨0, 0, 0⟩, ⟨1, 1, 1⟩), ⟨⟨0, -1, 0, 1, 0, 0, 0, 0, 1⟩, ⟨3, 0, 0⟩⟩)] (by
    have cube : ∀ q, InBox ⟨0, 0, 0⟩ ⟨1, 1, 1⟩ q → len (V q) ≤ 2 := by
      rintro q ⟨h1, h2, h3, h4, h5, h6⟩
      simp only at h1 h2 h3 h4 h5 h6
      exact small (by norm_num) (by nlinarith)
    intro x hx
    simp only [List.mem_cons, List.not_mem_nil, or_false] at hx
    rcases hx with rfl | rfl
    · refine ⟨by norm_num [Proper], cube, ?_, small (by norm_num) (by norm_num)⟩
      intro i j
      fin_cases i <;> fin_cases j <;> simp [M, Mat3.identity, Matrix.mul_apply, Fin.sum_univ_three]
    · refine ⟨by norm_num [Proper], cube, ?_, small (by norm_num) (by norm_num)⟩
      intro i j
      fin_cases i <;> fin_cases j <;> simp [M, Matrix.mul_apply, Fin.sum_univ_three])
  obtain ⟨m, hm⟩ : ∃ m : ℝ → ℝ, ∀ s, m s = (24 * (1 / 2 ^ 53) + 5 * 0) * (2 + 3 + len (V ⟨0.5, -2.5, -5.5⟩)) +
      (36 * (1 / 2 ^ 53) + 4 * (1 / 2 ^ 24) + 9 * 0) * |s| := ⟨_, fun _ => rfl⟩
  have hms : ∀ s, m s ≤ 1e-6 + 1e-6 * |s| := by
    intro s
    rw [hm]
    have l1 : len (V ⟨0.5, -2.5, -5.5⟩) ≤ 7 := small (by norm_num) (by norm_num)
    have a := mul_le_mul_of_nonneg_left (show 2 + 3 + len (V ⟨0.5, -2.5, -5.5⟩) ≤ 12 by linarith)
      (show (0 : ℝ) ≤ 24 * (1 / 2 ^ 53) + 5 * 0 by norm_num)
    have b := mul_le_mul_of_nonneg_right (show (36 * (1 / 2 ^ 53) + 4 * (1 / 2 ^ 24) + 9 * 0 : ℝ) ≤ 1e-6 by norm_num) (abs_nonneg s)
    have : (24 * (1 / 2 ^ 53) + 5 * 0) * (12 : ℝ) ≤ 1e-6 := by norm_num
    linarith
  have coord : ∀ {a b : Vec3} {e : ℝ}, Spec.dist a b ≤ e → |a.x - b.x| ≤ e ∧ |a.y - b.y| ≤ e ∧ |a.z - b.z| ≤ e := by
    intro a b e hd
    refine ⟨(Real.abs_le_sqrt ?_).trans hd, (Real.abs_le_sqrt ?_).trans hd, (Real.abs_le_sqrt ?_).trans hd⟩ <;>
    · unfold distSq
      nlinarith [sq_nonneg (a.x - b.x), sq_nonneg (a.y - b.y), sq_nonneg (a.z - b.z)]
  obtain ⟨res, hr, hs, ht⟩ := key ⟨0.5, -2.5, -5.5⟩ ⟨4, 6, 12⟩ ⟨2 / 7, 3 / 7, 6 / 7⟩
    ⟨by norm_num, 14, by norm_num, by norm_num, by norm_num, by norm_num⟩
    (by refine ⟨?_, ?_, ?_⟩ <;> simp only <;> rw [abs_of_nonneg (by norm_num)] <;> norm_num) (by
      intro x hx g hg
      simp only [List.mem_cons, List.not_mem_nil, or_false] at hx
      rcases hx with rfl | rfl
      · simp [Mat3.mulVec, Mat3.identity] at hg
        obtain ⟨g1, g2, g3⟩ := hg
        rw [g1, g2, g3]
        refine ⟨?_, ?_, ?_⟩ <;> rw [abs_of_nonneg (by norm_num)] <;> norm_num
      · simp [Mat3.mulVec] at hg
        obtain ⟨g1, g2, g3⟩ := hg
        have g1' : g.y = -(2 / 7) := by linarith
        rw [g1', g2, g3, abs_neg]
        refine ⟨?_, ?_, ?_⟩ <;> rw [abs_of_nonneg (by norm_num)] <;> norm_num) 0 8 0 (by norm_num)
    toFloat_eight m hm
  obtain ⟨h1, h2⟩ := ht _ (by simp; right; rfl) 6.417 (by norm_num) (by norm_num) (by
    intro p' hp'
    have := hms 6.417
    rw [abs_of_nonneg (by norm_num)] at this
    obtain ⟨c1, c2, c3⟩ := coord (hp'.trans this)
    rw [abs_le] at c1 c2 c3
    simp only [along] at c1 c2 c3
    refine ⟨⟨p'.y, 3 - p'.x, p'.z⟩, ?_, ?_⟩
    · ext <;> simp [Transform3.apply, Mat3.mulVec]
    · refine ⟨?_, ?_, ?_, ?_, ?_, ?_⟩ <;> simp only <;> linarith)
  refine ⟨c, res.2, hc, ?_, ?_, h2⟩
  · rw [hr, ← h1]
  · obtain ⟨-, x, hx, ⟨p, ⟨q, hq, b1, b2, b3, b4, b5, b6⟩, hd⟩, -⟩ := hs h1
    obtain ⟨c1, c2, c3⟩ := coord (hd.trans (hms _))
    rw [abs_le] at c1 c2 c3
    simp only [List.mem_cons, List.not_mem_nil, or_false] at hx
    rcases hx with rfl | rfl
    · simp [← hq, Transform3.apply, Mat3.mulVec, Mat3.identity, along] at b1 b2 b3 b4 b5 b6 c1 c2 c3
      rcases abs_cases res.2 with ⟨e, -⟩ | ⟨e, -⟩ <;> rw [e] at c1 c2 c3 <;> linarith [c1.1, c1.2, c2.1, c2.2, c3.1, c3.2]
    · simp [← hq, Transform3.apply, Mat3.mulVec, along] at b1 b2 b3 b4 b5 b6 c1 c2 c3
      rcases abs_cases res.2 with ⟨e, -⟩ | ⟨e, -⟩ <;> rw [e] at c1 c2 c3 <;> linarith [c1.1, c1.2, c2.1, c2.2, c3.1, c3.2]

end Geo
