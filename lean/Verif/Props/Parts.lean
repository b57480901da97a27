import Verif.Lemmas.Parts
import Verif.Props.Composite
import Verif.Lemmas.HeightMapContains
import Verif.Spec.Parts

/-!
# Property theorems C115: height maps as parts of composites
-/

namespace Geo

open Spec

/-- C115 for rays whose x and y components are positive in the frame of the height map: it has one candidate, the least
parameter at which the line of the ray enters a positive column that it is in at some parameter beyond `t0`. Full claim: for
directions of all signs, which `C115_order_wrong` refutes. -/
theorem C115_candidate_partial (grid : List (List ℝ)) (m n : ℕ) (res : ℝ) (hg : Rectangular grid m n) (hm : 0 < m)
    (hm' : m ≤ 2 ^ 31) (hn : n ≤ 2 ^ 31) (hres : 0 ≤ res) (h : HeightMap)
    (hh : HeightMap.fromGrid grid res = .ok h) (o d u : Vec3) (hu : UnitAlong d u) (hx : 1e-9 ≤ u.x)
    (hy : 1e-9 ≤ u.y) (hz : 1e-9 ≤ |u.z|) (t0 : ℝ) (h0 : 0 ≤ t0) :
    ∃ e, Candidate h.toObj (Ray.new o d) t0 e ∧
      ∀ x, e = some x ↔ IsLeast {x | ∃ c : ℕ × ℕ, 0 < height grid c.1 c.2 ∧
        (∃ t, t0 < t ∧ InBox (columnLo res c) (columnHi res grid c) (along o u t)) ∧
        IsLeast {t | InBox (columnLo res c) (columnHi res grid c) (along o u t)} x} x := by
  classical
  have hx' : (1e-9:ℝ) ≤ |u.x| := hx.trans (le_abs_self _)
  have hy' : (1e-9:ℝ) ≤ |u.y| := hy.trans (le_abs_self _)
  have hx0 : 0 < u.x := lt_of_lt_of_le (by norm_num) hx
  have hy0 : 0 < u.y := lt_of_lt_of_le (by norm_num) hy
  have hp : ∀ c : ℕ × ℕ, 0 < height grid c.1 c.2 → Proper (columnLo res c) (columnHi res grid c) := fun c hc =>
    ⟨mul_le_mul_of_nonneg_right (by linarith) hres, mul_le_mul_of_nonneg_right (by linarith) hres, hc.le⟩
  choose E hE using fun c : ℕ × ℕ => box_candidate (Box.new (columnLo res c) (columnHi res grid c)) (Ray.new o d) t0
  have spec := fun c hc => box_candidate_spec (hp c hc) hu hx' hy' hz (hE c)
  have colhit : ∀ c t1 d0, (((Box.new (columnLo res c) (columnHi res grid c)).intersectRay (Ray.new o d) t0 t1 d0).1 = true ↔
      ∃ x, E c = some x ∧ x < t1) ∧
      (((Box.new (columnLo res c) (columnHi res grid c)).intersectRay (Ray.new o d) t0 t1 d0).1 = true →
        E c = some ((Box.new (columnLo res c) (columnHi res grid c)).intersectRay (Ray.new o d) t0 t1 d0).2) := by
    intro c t1 d0
    obtain ⟨r, h1, h2, h3⟩ := hE c t1 d0
    simp only [Box.toObj, Except.ok.injEq] at h1
    rw [h1]
    exact ⟨h2, h3⟩
  -- the answer of the height map in terms of the columns
  have hit : ∀ t1 d0, (h.intersectRay (Ray.new o d) t0 t1 d0).1 = true ↔ ∃ c : ℕ × ℕ, 0 < height grid c.1 c.2 ∧
      ∃ x, E c = some x ∧ x < t1 := by
    intro t1 d0
    rw [(C43_ray grid m n res hg hm hm' hn hres h hh o d t0 t1 d0).1]
    exact exists_congr fun c => and_congr_right fun _ => (colhit c t1 0).1
  have least : ∀ t1 d0, (h.intersectRay (Ray.new o d) t0 t1 d0).1 = true →
      IsLeast {x | ∃ c : ℕ × ℕ, 0 < height grid c.1 c.2 ∧ E c = some x} (h.intersectRay (Ray.new o d) t0 t1 d0).2 ∧
      (h.intersectRay (Ray.new o d) t0 t1 d0).2 < t1 := by
    intro t1 d0 ht
    obtain ⟨c, hc, hb, he⟩ := (C43_ray grid m n res hg hm hm' hn hres h hh o d t0 t1 d0).2 ht
    have hEc := (colhit c t1 0).2 hb
    rw [← he] at hEc
    obtain ⟨x, e1, e2⟩ := (colhit c t1 0).1.1 hb
    rw [hEc] at e1
    have ex := Option.some.inj e1
    have hlt : (h.intersectRay (Ray.new o d) t0 t1 d0).2 < t1 := by rw [ex]; exact e2
    refine ⟨⟨⟨c, hc, hEc⟩, ?_⟩, hlt⟩
    rintro x' ⟨c', hc', hE'⟩
    by_contra hlt'
    rw [not_le] at hlt'
    by_cases hb0 : (h.intersectRay (Ray.new o d) t0 t1 d0).2 ≤ t0
    · -- both columns hold the ray just beyond `t0`
      obtain ⟨s, s1, -, s3⟩ := (spec c hc).2.1 _ hEc (t0 + 1) (by linarith) (by linarith)
      obtain ⟨s', s1', -, s3'⟩ := (spec c' hc').2.1 _ hE' (t0 + 1) (by linarith) (by linarith)
      have l1 := ((spec c hc).1 _ hEc).1
      have l2 := ((spec c' hc').1 _ hE').1
      simp only [Set.mem_ofPred_eq] at l1 l2
      have hmin : t0 < min s s' := lt_min s1 s1'
      have := column_unique hres hx0 hy0 hmin (inBox_between l1 s3 hb0 s1.le)
        (inBox_between l1 s3 (hb0.trans hmin.le) (min_le_left _ _))
        (inBox_between l2 s3' (by linarith) s1'.le)
        (inBox_between l2 s3' (by linarith) (min_le_right _ _))
      subst this
      rw [hEc] at hE'
      have := Option.some.inj hE'
      linarith
    · rw [not_le] at hb0
      obtain ⟨t, a1, a2, a3⟩ := (spec c' hc').2.1 _ hE' (h.intersectRay (Ray.new o d) t0 t1 d0).2 hb0 hlt'
      have := C44_nearest_partial grid m n res hg hm hm' hn hres h hh o d u hu hx hy hz t0 t1 d0 h0 (hb0.trans hlt) ht c' hc' t
        a1 (a2.trans hlt) a3
      linarith
  have hset : {x | ∃ c : ℕ × ℕ, 0 < height grid c.1 c.2 ∧
        (∃ t, t0 < t ∧ InBox (columnLo res c) (columnHi res grid c) (along o u t)) ∧
        IsLeast {t | InBox (columnLo res c) (columnHi res grid c) (along o u t)} x} =
      {x | ∃ c : ℕ × ℕ, 0 < height grid c.1 c.2 ∧ E c = some x} := by
    ext x
    constructor
    · rintro ⟨c, hc, ht, hl⟩
      obtain ⟨x', hx'⟩ := (spec c hc).2.2 ht
      exact ⟨c, hc, by rw [hx', ((spec c hc).1 _ hx').unique hl]⟩
    · rintro ⟨c, hc, he⟩
      obtain ⟨t, a1, -, a3⟩ := (spec c hc).2.1 _ he (max x t0 + 1) (by linarith [le_max_right x t0]) (by linarith [le_max_left x t0])
      exact ⟨c, hc, ⟨t, a1, a3⟩, (spec c hc).1 _ he⟩
  rw [hset]
  by_cases hex : ∃ c : ℕ × ℕ, 0 < height grid c.1 c.2 ∧ ∃ x, E c = some x
  · obtain ⟨c, hc, x, hcx⟩ := hex
    obtain ⟨l1, -⟩ := least (x + 1) 0 ((hit _ _).2 ⟨c, hc, x, hcx, by linarith⟩)
    refine ⟨some (h.intersectRay (Ray.new o d) t0 (x + 1) 0).2, ?_, ?_⟩
    · intro t1 d0
      refine ⟨_, rfl, ?_, ?_⟩
      · rw [hit]
        constructor
        · rintro ⟨c', hc', y, hy1, hy2⟩
          exact ⟨_, rfl, lt_of_le_of_lt (l1.2 ⟨c', hc', hy1⟩) hy2⟩
        · rintro ⟨y, hy1, hy2⟩
          obtain ⟨c', hc', he'⟩ := l1.1
          exact ⟨c', hc', _, he', by rw [Option.some.inj hy1]; exact hy2⟩
      · intro ht
        rw [(least t1 d0 ht).1.unique l1]
    · intro y
      constructor
      · intro e
        rw [← Option.some.inj e]; exact l1
      · intro hl
        rw [l1.unique hl]
  · refine ⟨none, ?_, ?_⟩
    · intro t1 d0
      refine ⟨_, rfl, ?_, ?_⟩
      · rw [hit]
        constructor
        · rintro ⟨c, hc, x, h1, -⟩
          exact absurd ⟨c, hc, x, h1⟩ hex
        · rintro ⟨x, h1, -⟩
          simp at h1
      · intro ht
        obtain ⟨c, hc, x, h1, -⟩ := (hit _ _).1 ht
        exact absurd ⟨c, hc, x, h1⟩ hex
    · intro x
      constructor
      · intro e; simp at e
      · rintro ⟨⟨c, hc, h1⟩, -⟩
        exact absurd ⟨c, hc, x, h1⟩ hex

/-- C115 case: two columns of height 10 and a ray from (-1, -2, 1) towards (1, 2, 2), in the first column from 3 on. -/
example : ∃ h, HeightMap.fromGrid [[10], [10]] 1 = .ok h ∧
    ∃ e, Candidate h.toObj (Ray.new ⟨-1, -2, 1⟩ ⟨1, 2, 2⟩) 0 e ∧ e = some 3 := by
  obtain ⟨hg, hr, e0, e1⟩ := twoColumns
  obtain ⟨h, hh⟩ := C42_returns _ 2 1 1 hg (by norm_num) hr
  obtain ⟨e, he, hl⟩ := C115_candidate_partial _ 2 1 1 hg (by norm_num) (by norm_num) (by norm_num) zero_le_one h hh ⟨-1, -2, 1⟩
    ⟨1, 2, 2⟩ _ unit122.1 (by norm_num) (by norm_num) (by norm_num [abs_of_pos]) 0 le_rfl
  refine ⟨h, hh, e, he, (hl 3).2 ⟨⟨(0, 0), by rw [e0]; norm_num, ⟨4, by norm_num, ?_⟩, ?_, ?_⟩, ?_⟩⟩
  · simp only [InBox, along, columnLo, columnHi, e0]; norm_num
  · simp only [Set.mem_ofPred_eq, InBox, along, columnLo, columnHi, e0]; norm_num
  · intro t ht
    simp only [Set.mem_ofPred_eq, InBox, along, columnLo, columnHi] at ht
    have := ht.1
    norm_num at this
    linarith
  · rintro t ⟨c, -, -, ht, -⟩
    simp only [Set.mem_ofPred_eq, InBox, along, columnLo, columnHi] at ht
    have := ht.1
    have hc : (0:ℝ) ≤ c.1 := Nat.cast_nonneg _
    linarith

/-- C115: the order in which boxes and height maps were added to a composite does not change what a ray finds, if in the frame of
every height map the x and y components of its direction are positive. -/
theorem C115_order_partial (l l' : List (ShapeObj × Transform3)) (hp : l.Perm l') (r : Ray) (t0 t1 d0 : ℝ) (h0 : 0 ≤ t0)
    (hl : ∀ x ∈ l, EasyPart r x) :
    ∃ c c' res res', Composite.build l = .ok c ∧ Composite.build l' = .ok c' ∧
      c.intersectRay r t0 t1 d0 = .ok res ∧ c'.intersectRay r t0 t1 d0 = .ok res' ∧
      res.1 = res'.1 ∧ (res.1 = true → res.2 = res'.2) := by
  refine C32_order l l' hp ?_ r t0 t1 d0 ?_
  · intro x hx
    rcases hl x hx with ⟨lo, hi, e⟩ | ⟨grid, m, n, res, h, u, h1, h2, h3, -, h5, e, -⟩
    · rw [e]; exact box_good lo hi
    · rw [e]; exact heightMap_good grid m n res h1 h2 h3 h h5
  · intro x hx
    rcases hl x hx with ⟨lo, hi, e⟩ | ⟨grid, m, n, res, h, u, h1, h2, h3, h4, h5, e, hu, hx1, hy1, hz1⟩
    · rw [e]; exact box_candidate _ _ _
    · rw [e]
      have hb : m ≤ 2 ^ 31 ∧ n ≤ 2 ^ 31 := by
        have := h3.1
        constructor <;> nlinarith
      obtain ⟨e, he, -⟩ := C115_candidate_partial grid m n res h1 h2 hb.1 hb.2 h4 h h5
        (x.2.inverse.apply r.origin) (x.2.inverse.R.mulVec r.direction) u hu hx1 hy1 hz1 t0 h0
      exact ⟨e, he⟩

/-- C115 case: the height map and a box, both at the origin, and a ray towards (1, 2, 2). -/
example : ∃ h, HeightMap.fromGrid [[10], [10]] 1 = .ok h ∧
    ∀ x ∈ [(h.toObj, Transform3.identity), ((Box.new ⟨1, 0, 3⟩ ⟨5 / 3, 1, 4⟩).toObj, Transform3.identity)],
      EasyPart (Ray.new ⟨-1, -2, 1⟩ ⟨1, 2, 2⟩) x := by
  obtain ⟨hg, hr, -, -⟩ := twoColumns
  obtain ⟨h, hh⟩ := C42_returns _ 2 1 1 hg (by norm_num) hr
  refine ⟨h, hh, fun x hx => ?_⟩
  simp only [List.mem_cons, List.not_mem_nil, or_false] at hx
  rcases hx with rfl | rfl
  · refine .inr ⟨_, 2, 1, 1, h, ⟨1 / 3, 2 / 3, 2 / 3⟩, hg, by norm_num, hr, zero_le_one, hh, rfl, ?_, by norm_num, by norm_num,
      by norm_num [abs_of_pos]⟩
    have : (Ray.new ⟨-1, -2, 1⟩ ⟨1, 2, 2⟩).direction = ⟨1 / 3, 2 / 3, 2 / 3⟩ := unitAlong_normalized unit122.1
    simp only [this]
    refine ⟨by norm_num, 1, by norm_num, ?_, ?_, ?_⟩ <;> simp [Transform3.identity, Transform3.inverse, Mat3.identity, Mat3.mulVec, Mat3.transpose]
  · exact .inl ⟨_, _, rfl⟩

/-- C115 fails for other directions: a ray meets the height map of two columns at 1.5 and a box at 2. If the height map was added
first, 2 is reported, and 1.5 if the box was. -/
theorem C115_order_wrong : ∃ h c c', HeightMap.fromGrid [[10], [10]] 1 = .ok h ∧
    Composite.build [(h.toObj, Transform3.identity), ((Box.new ⟨1, 0, 3⟩ ⟨5 / 3, 1, 4⟩).toObj, Transform3.identity)] = .ok c ∧
    Composite.build [((Box.new ⟨1, 0, 3⟩ ⟨5 / 3, 1, 4⟩).toObj, Transform3.identity), (h.toObj, Transform3.identity)] = .ok c' ∧
    c.intersectRay (Ray.new ⟨3, -1 / 4, 5⟩ ⟨-2, 1, -2⟩) 0 100 0 = .ok (true, 2) ∧
    c'.intersectRay (Ray.new ⟨3, -1 / 4, 5⟩ ⟨-2, 1, -2⟩) 0 100 0 = .ok (true, 1.5) := by
  obtain ⟨hg, hr, e0, e1⟩ := twoColumns
  obtain ⟨h, hh, hu, hfar, -, -⟩ := C44_nearest_wrong
  have hgood := heightMap_good _ 2 1 1 hg (by norm_num) hr h hh
  have hx : (1e-9 : ℝ) ≤ |(-2 / 3 : ℝ)| := by norm_num [abs_of_neg]
  have hy : (1e-9 : ℝ) ≤ |(1 / 3 : ℝ)| := by norm_num [abs_of_pos]
  -- rays in the frames of the parts
  have hray : Ray.new (Transform3.identity.inverse.apply (Ray.new ⟨3, -1 / 4, 5⟩ ⟨-2, 1, -2⟩).origin)
      (Transform3.identity.inverse.R.mulVec (Ray.new ⟨3, -1 / 4, 5⟩ ⟨-2, 1, -2⟩).direction) =
      Ray.new ⟨3, -1 / 4, 5⟩ ⟨-2, 1, -2⟩ := by
    have n1 := unitAlong_normalized hu
    have n2 : (⟨-2 / 3, 1 / 3, -2 / 3⟩ : Vec3).normalized = ⟨-2 / 3, 1 / 3, -2 / 3⟩ :=
      unitAlong_normalized ⟨by norm_num, 1, by norm_num⟩
    have o1 : Transform3.identity.inverse.apply (Ray.new ⟨3, -1 / 4, 5⟩ ⟨-2, 1, -2⟩).origin = ⟨3, -1 / 4, 5⟩ := by
      ext <;> simp [Transform3.identity, Transform3.inverse, Transform3.apply, Mat3.identity, Mat3.mulVec, Mat3.transpose, Ray.new]
    have o2 : Transform3.identity.inverse.R.mulVec (Ray.new ⟨3, -1 / 4, 5⟩ ⟨-2, 1, -2⟩).direction = ⟨-2 / 3, 1 / 3, -2 / 3⟩ := by
      have : (Ray.new ⟨3, -1 / 4, 5⟩ ⟨-2, 1, -2⟩).direction = ⟨-2 / 3, 1 / 3, -2 / 3⟩ := n1
      rw [this]
      ext <;> simp [Transform3.identity, Transform3.inverse, Mat3.identity, Mat3.mulVec, Mat3.transpose]
    rw [o1, o2]
    unfold Ray.new
    rw [n1, n2]
  -- the box
  have hbox : ∀ t1 d0, 2 < t1 → (Box.new ⟨1, 0, 3⟩ ⟨5 / 3, 1, 4⟩).intersectRay (Ray.new ⟨3, -1 / 4, 5⟩ ⟨-2, 1, -2⟩) 0 t1 d0 = (true, 2) := by
    intro t1 d0 ht
    obtain ⟨b1, b2⟩ := C26_ray ⟨1, 0, 3⟩ ⟨5 / 3, 1, 4⟩ ⟨3, -1 / 4, 5⟩ ⟨-2, 1, -2⟩ _ 0 t1 d0 (by norm_num [Proper]) hu hx hy hx (by linarith)
    have hit := b1.2 ⟨2, by norm_num, ht, by norm_num [InBox, along]⟩
    refine Prod.ext hit ((b2 hit).unique ⟨by norm_num [InBox, along], ?_⟩)
    intro t ht
    simp only [Set.mem_ofPred_eq, InBox, along] at ht
    linarith [ht.2.1]
  -- the height map up to 2
  have hnear : h.intersectRay (Ray.new ⟨3, -1 / 4, 5⟩ ⟨-2, 1, -2⟩) 0 2 0 = (true, 1.5) := by
    obtain ⟨a1, a2⟩ := C43_geometric _ 2 1 1 hg (by norm_num) (by norm_num) (by norm_num) zero_le_one h hh ⟨3, -1 / 4, 5⟩
      ⟨-2, 1, -2⟩ _ hu hx hy hx 0 2 0 (by norm_num)
    have hit := a1.2 ⟨1.6, (1, 0), by norm_num, by norm_num, by rw [e1]; norm_num, by
      simp only [InBox, along, columnLo, columnHi, e1]; norm_num⟩
    obtain ⟨b1, b2⟩ := C43_ray _ 2 1 1 hg (by norm_num) (by norm_num) (by norm_num) zero_le_one h hh ⟨3, -1 / 4, 5⟩
      ⟨-2, 1, -2⟩ 0 2 0
    obtain ⟨c, hc, c1, c2⟩ := b2 hit
    have hcol := C26_ray (columnLo 1 c) (columnHi 1 [[10], [10]] c) ⟨3, -1 / 4, 5⟩ ⟨-2, 1, -2⟩ _ 0 2 0
      ⟨by simp [columnLo, columnHi], by simp [columnLo, columnHi], hc.le⟩ hu hx hy hx (by norm_num)
    obtain ⟨t, t1, t2, t3⟩ := hcol.1.1 c1
    have hc1 : c = (1, 0) := by
      obtain ⟨x, y⟩ := c
      simp only [InBox, along, columnLo, columnHi] at t3
      have hx1 : 1 ≤ x := by
        by_contra hn
        have : x = 0 := by omega
        subst this
        have := t3.2.1
        norm_num at this
        linarith
      have hx2 : x < 2 := by
        by_contra hn
        have : height [[10], [10]] x y = 0 := by
          obtain ⟨k, rfl⟩ : ∃ k, x = k + 2 := ⟨x - 2, by omega⟩
          simp [height]
        simp only [this] at hc
        linarith
      have hy2 : y = 0 := by
        by_contra hn
        have : x = 1 := by omega
        subst this
        have : height [[10], [10]] 1 y = 0 := by
          cases y with
          | zero => exact absurd rfl hn
          | succ k => simp [height]
        simp only [this] at hc
        linarith
      exact Prod.ext (by show x = 1; omega) hy2
    subst hc1
    refine Prod.ext hit ?_
    rw [c2]
    refine (hcol.2 c1).unique ⟨by simp only [Set.mem_ofPred_eq, InBox, along, columnLo, columnHi, e1]; norm_num, ?_⟩
    intro s hs
    simp only [Set.mem_ofPred_eq, InBox, along, columnLo, columnHi, e1] at hs
    have := hs.2.1
    norm_num at this ⊢
    linarith
  -- the bounding boxes
  have hbb : ∀ l c, (∀ x ∈ l, GoodMesh x.1.mesh) → Composite.build l = .ok c →
      ((Box.new ⟨1, 0, 3⟩ ⟨5 / 3, 1, 4⟩).toObj, Transform3.identity) ∈ l →
      ∃ d, c.bb.intersectRay (Ray.new ⟨3, -1 / 4, 5⟩ ⟨-2, 1, -2⟩) 0 100 0 = (true, d) := by
    intro l c hl hc hmem
    obtain ⟨hin, -, -, he⟩ := Composite.bb_eq hl hc
    have corner : ∀ v ∈ corners8 ⟨1, 0, 3⟩ ⟨5 / 3, 1, 4⟩, InBox c.bb.lo c.bb.hi v := by
      intro v hv
      apply hin
      have hv' := (box_trianglesOf ⟨1, 0, 3⟩ ⟨5 / 3, 1, 4⟩ v).2 hv
      simp only [cornersOf, List.mem_flatMap] at hv'
      obtain ⟨t, ht, hv'⟩ := hv'
      have hid : ∀ w, Transform3.identity.apply w = w := by
        intro w; ext <;> simp [Transform3.identity, Transform3.apply, Mat3.identity, Mat3.mulVec]
      unfold posedTriangles
      simp only [cornersOf, List.mem_flatMap]
      refine ⟨_, ⟨_, hmem, List.mem_map.2 ⟨t, ht, rfl⟩⟩, ?_⟩
      simpa [hid] using hv'
    have q1 := corner ⟨1, 0, 3⟩ (by simp [corners8])
    have q2 := corner ⟨5 / 3, 1, 4⟩ (by simp [corners8])
    obtain ⟨b1, -⟩ := C26_ray c.bb.lo c.bb.hi ⟨3, -1 / 4, 5⟩ ⟨-2, 1, -2⟩ _ 0 100 0
      ⟨q1.1.trans q1.2.1, q1.2.2.1.trans q1.2.2.2.1, q1.2.2.2.2.1.trans q1.2.2.2.2.2⟩ hu hx hy hx (by norm_num)
    rw [← he] at b1
    have hit := b1.2 ⟨2, by norm_num, by norm_num, by
      simp only [InBox, along] at q1 q2 ⊢
      norm_num
      refine ⟨?_, ?_, ?_, ?_, ?_, ?_⟩ <;> linarith [q1.1, q1.2.2.1, q1.2.2.2.2.1, q2.2.1, q2.2.2.2.1, q2.2.2.2.2.2]⟩
    exact ⟨_, Prod.ext hit rfl⟩
  have hl1 : ∀ x ∈ [(h.toObj, Transform3.identity), ((Box.new ⟨1, 0, 3⟩ ⟨5 / 3, 1, 4⟩).toObj, Transform3.identity)],
      GoodMesh x.1.mesh := by
    intro x hx
    simp only [List.mem_cons, List.not_mem_nil, or_false] at hx
    rcases hx with rfl | rfl
    · exact hgood
    · exact box_good _ _
  have hl2 : ∀ x ∈ [((Box.new ⟨1, 0, 3⟩ ⟨5 / 3, 1, 4⟩).toObj, Transform3.identity), (h.toObj, Transform3.identity)],
      GoodMesh x.1.mesh := by
    intro x hx
    exact hl1 x (by simp only [List.mem_cons, List.not_mem_nil, or_false] at hx ⊢; tauto)
  obtain ⟨c, hc, -⟩ := Composite.build_from _ hl1 Composite.new
  obtain ⟨c', hc', -⟩ := Composite.build_from _ hl2 Composite.new
  refine ⟨h, c, c', hh, hc, hc', ?_, ?_⟩
  · obtain ⟨-, -, hsh, -⟩ := Composite.bb_eq hl1 hc
    obtain ⟨d, hd⟩ := hbb _ c hl1 hc (by simp)
    unfold Composite.intersectRay
    rw [hd, hsh]
    simp only [List.map_cons, List.map_nil, Composite.rayLoop, hray, HeightMap.toObj, Box.toObj, bind, Except.bind, hfar, if_true,
      hbox 3 0 (by norm_num), pure, Except.pure, Bool.not_true, Bool.false_eq_true, if_false]
  · obtain ⟨-, -, hsh, -⟩ := Composite.bb_eq hl2 hc'
    obtain ⟨d, hd⟩ := hbb _ c' hl2 hc' (by simp)
    unfold Composite.intersectRay
    rw [hd, hsh]
    simp only [List.map_cons, List.map_nil, Composite.rayLoop, hray, HeightMap.toObj, Box.toObj, bind, Except.bind, hnear, if_true,
      hbox 100 0 (by norm_num), pure, Except.pure, Bool.not_true, Bool.false_eq_true, if_false]

end Geo
