import Verif.Lemmas.OctreeUse

/-!
# Properties of octrees (C35–C41)
-/

namespace Geo

open Spec

/-! ## C35 -/

/-- C35: for a positive request, constructing an octree terminates and its resolution is the size halved the
least number of times that makes it not exceed the request. -/
theorem C35_new (size request : ℝ) (hr : 0 < request) :
    ∃ (k : ℕ) (t : Octree), Octree.new size request = .ok t ∧ t.getResolution = size / 2 ^ k ∧
      size / 2 ^ k ≤ request ∧ ∀ j < k, request < size / 2 ^ j := by
  obtain ⟨k, h1, h2⟩ := Octree.exists_depth (s := size) hr
  exact ⟨k, _, Octree.new_eq k h1 h2, rfl, h1, h2⟩

/-- C35: the same for `setResolution`, which changes nothing else and returns the new resolution. -/
theorem C35_set (t : Octree) (request : ℝ) (hr : 0 < request) :
    ∃ (k : ℕ) (t' : Octree), t.setResolution request = .ok (t', t'.getResolution) ∧
      t'.getResolution = t.size / 2 ^ k ∧ t' = { t with resolution := t.size / 2 ^ k } ∧
      t.size / 2 ^ k ≤ request ∧ ∀ j < k, request < t.size / 2 ^ j := by
  obtain ⟨k, h1, h2⟩ := Octree.exists_depth (s := t.size) hr
  refine ⟨k, { t with resolution := t.size / 2 ^ k }, ?_, rfl, rfl, h1, h2⟩
  unfold Octree.setResolution
  simp only [Octree.halve_spec k h1 h2, bind, Except.bind, pure, Except.pure]
  rfl

/-- C35: the request must be positive: otherwise the loop does not end (in exact arithmetic). -/
theorem C35_not_positive_hangs (size request : ℝ) (hs : 0 < size) (hr : request ≤ 0) :
    Octree.new size request = .error .hang := by
  unfold Octree.new Octree.setResolution
  simp only [Octree.halve_hang hr hs, bind, Except.bind]

/-- C35 case: size 10, request 3: two halvings. -/
example : ∃ t, Octree.new 10 3 = .ok t ∧ t.getResolution = 2.5 := by
  refine ⟨_, Octree.new_eq 2 (by norm_num) ?_, by norm_num [Octree.getResolution]⟩
  intro j hj
  interval_cases j <;> norm_num

/-! ## C36 -/

/-- C36, partial: full statement: the same without `htol`, which fails, see `C36_tiny_wrong`.
After any history of additions, clearings and queries on a new octree with cells of at least 1e-10, the reported cubes are exactly, without repetition, the grid cells holding a point added since the last
clearing; every reported cube lies in the tree; and every live point inside the tree is inside the cube of its
cell. -/
theorem C36_cubes_partial (size request : ℝ) (t0 t : Octree) (ops : List Octree.Op)
    (hr : 0 < request) (h0 : Octree.new size request = .ok t0) (htol : 1e-10 ≤ t0.resolution)
    (hq : Untraced ops) (hrun : t0.run ops = .ok t) :
    ∃ n : ℕ, t0.resolution * n = size ∧ t.resolution = t0.resolution ∧
      t.offset = ⟨-size / 2, -size / 2, -size / 2⟩ ∧
      Shows t t.resolution t.offset (fun c => ∃ p ∈ live ops [], InCell t.resolution n t.offset c p) ∧
      (∀ b ∈ t.getCubes, InBox ⟨-size / 2, -size / 2, -size / 2⟩ ⟨size / 2, size / 2, size / 2⟩ b.lo ∧
        InBox ⟨-size / 2, -size / 2, -size / 2⟩ ⟨size / 2, size / 2, size / 2⟩ b.hi) ∧
      (∀ p ∈ live ops [], InBox ⟨-size / 2, -size / 2, -size / 2⟩ ⟨size / 2, size / 2, size / 2⟩ p →
        ∃ b ∈ t.getCubes, InBox b.lo b.hi p) := by
  obtain ⟨k, hg0, hno, -, -⟩ := Octree.good_new hr h0 htol
  have hg := Octree.run_good hg0 (untraced_ok hq) hrun
  have hocc := live_occ hq hg0 (ps := []) (by simpa using hno) hrun
  have hres := Octree.run_res hrun
  have hmem : ∀ c, OctNode.Occ k t.root c ↔ ∃ p ∈ live ops [], InCell t.resolution (2 ^ k) t.offset c p := by
    intro c
    rw [hocc c]
    exact exists_congr fun p => and_congr_right fun _ => Octree.cell_iff hg p c
  obtain ⟨cells, c1, c2, c3⟩ := Octree.good_shows hg
  have hpos := hg.pos
  have hsz : t.resolution * ((2 ^ k : ℕ) : ℝ) = size := by push_cast; exact hg.res
  have bound : ∀ c : ℕ, c < 2 ^ k → (0:ℝ) ≤ c * t.resolution ∧ ((c:ℝ) + 1) * t.resolution ≤ size := by
    intro c hc
    refine ⟨by positivity, ?_⟩
    have : ((c:ℝ) + 1) ≤ ((2 ^ k : ℕ) : ℝ) := by exact_mod_cast hc
    have := mul_le_mul_of_nonneg_left this hpos.le
    linarith
  refine ⟨2 ^ k, by rw [← hres]; exact hsz, hres, hg.off, ⟨cells, c1, fun c => (c2 c).trans (hmem c), c3⟩, ?_, ?_⟩
  · intro b hb
    rw [c3] at hb
    obtain ⟨c, hc, rfl⟩ := List.mem_map.1 hb
    obtain ⟨p, -, hp⟩ := (hmem c).1 ((c2 c).1 hc)
    have b1 := bound _ hp.1.1
    have b2 := bound _ hp.2.1.1
    have b3 := bound _ hp.2.2.1
    rw [hg.off]
    simp only [Box.new_lo, Box.new_hi, InBox, cellLo, cellHi]
    refine ⟨⟨?_, ?_, ?_, ?_, ?_, ?_⟩, ?_, ?_, ?_, ?_, ?_, ?_⟩ <;> linarith
  · intro p hp hin
    have hc := (Octree.cell_iff hg p (OctNode.cellOf k size (p - t.offset))).1 rfl
    set c := OctNode.cellOf k size (p - t.offset) with hcdef
    have hcm := (c2 c).2 ((hmem c).2 ⟨p, hp, hc⟩)
    refine ⟨Box.new (cellLo t.resolution t.offset c) (cellHi t.resolution t.offset c), ?_, ?_⟩
    · rw [c3]; exact List.mem_map.2 ⟨c, hcm, rfl⟩
    have slab : ∀ (j : ℕ) (x : ℝ), InSlab t.resolution (2 ^ k) j x → 0 ≤ x → x ≤ size →
        j * t.resolution ≤ x ∧ x ≤ (j + 1) * t.resolution := by
      rintro j x ⟨s1, s2, s3⟩ hx hx'
      constructor
      · rcases s2 with s2 | s2
        · rw [s2]; simpa using hx
        · exact s2.le
      · rcases s3 with s3 | s3
        · have : ((j:ℝ) + 1) = ((2 ^ k : ℕ) : ℝ) := by exact_mod_cast s3
          rw [this, mul_comm, hsz]; exact hx'
        · exact s3
    obtain ⟨i1, i2, i3, i4, i5, i6⟩ := hin
    rw [hg.off] at hc ⊢
    obtain ⟨s1, s2, s3⟩ := hc
    simp only at s1 s2 s3 i1 i2 i3 i4 i5 i6
    have d1 := slab _ _ s1 (by linarith) (by linarith)
    have d2 := slab _ _ s2 (by linarith) (by linarith)
    have d3 := slab _ _ s3 (by linarith) (by linarith)
    simp only [Box.new_lo, Box.new_hi, InBox, cellLo, cellHi]
    refine ⟨?_, ?_, ?_, ?_, ?_, ?_⟩ <;> linarith

/-- C36, partial (missing: cells below 1e-10): additions and clearings never fail. -/
theorem C36_no_fault_partial (size request : ℝ) (t0 : Octree) (ops : List Octree.Op) (hr : 0 < request)
    (h0 : Octree.new size request = .ok t0) (htol : 1e-10 ≤ t0.resolution)
    (hq : ∀ o ∈ ops, o = .clear ∨ ∃ p, o = .add p) : ∃ t, t0.run ops = .ok t := by
  obtain ⟨k, hg0, -⟩ := Octree.good_new hr h0 htol
  clear h0 htol
  induction ops generalizing t0 with
  | nil => exact ⟨t0, rfl⟩
  | cons op ops ih =>
    have hq' : ∀ o ∈ ops, o = .clear ∨ ∃ p, o = .add p := fun o ho => hq o (by simp [ho])
    rcases hq op (by simp) with rfl | ⟨p, rfl⟩
    · obtain ⟨t, ht⟩ := ih t0.clear hq' (Octree.clear_good hg0).1
      exact ⟨t, by simpa [Octree.run, Octree.step, bind, Except.bind] using ht⟩
    · obtain ⟨t', h1, h2, -⟩ := Octree.add_good hg0 p
      obtain ⟨t, ht⟩ := ih t' hq' h2
      exact ⟨t, by simpa [Octree.run, Octree.step, bind, Except.bind, h1] using ht⟩

/-- C36, partial (missing: cells below 1e-10): adding is idempotent and order-independent: two histories on the same new octree that leave the same
set of live points give the same cubes, up to order. -/
theorem C36_same_points_partial (size request : ℝ) (t0 t t' : Octree) (ops ops' : List Octree.Op)
    (hr : 0 < request) (h0 : Octree.new size request = .ok t0) (htol : 1e-10 ≤ t0.resolution)
    (hq : Untraced ops) (hq' : Untraced ops') (hrun : t0.run ops = .ok t) (hrun' : t0.run ops' = .ok t')
    (hsame : ∀ p, p ∈ live ops [] ↔ p ∈ live ops' []) : t.getCubes.Perm t'.getCubes := by
  obtain ⟨n, n1, n2, n3, ⟨cells, c1, c2, c3⟩, -⟩ := C36_cubes_partial size request t0 t ops hr h0 htol hq hrun
  obtain ⟨m, m1, m2, m3, ⟨cells', d1, d2, d3⟩, -⟩ := C36_cubes_partial size request t0 t' ops' hr h0 htol hq' hrun'
  have hpos : 0 < t0.resolution := lt_of_lt_of_le (by norm_num) htol
  have e : n = m := by
    have : t0.resolution * n = t0.resolution * m := by rw [n1, m1]
    exact_mod_cast mul_left_cancel₀ hpos.ne' this
  subst e
  rw [c3, d3, n2, m2, n3, m3]
  refine List.Perm.map _ ((List.perm_ext_iff_of_nodup c1 d1).2 fun c => ?_)
  rw [c2, d2, n2, m2, n3, m3]
  exact exists_congr fun p => and_congr (hsame p) Iff.rfl

/-- C36 case: a tree of size 4 with unit cells; one point, then clearing, then two points. -/
example : ∃ t0 t, Octree.new 4 1 = .ok t0 ∧ 1e-10 ≤ t0.resolution ∧
    Untraced [.add ⟨1, 1, 1⟩, .clear, .add ⟨0.5, 0.5, 0.5⟩, .add ⟨-1.5, 0, 1⟩] ∧
    t0.run [.add ⟨1, 1, 1⟩, .clear, .add ⟨0.5, 0.5, 0.5⟩, .add ⟨-1.5, 0, 1⟩] = .ok t ∧
    live [.add ⟨1, 1, 1⟩, .clear, .add ⟨0.5, 0.5, 0.5⟩, .add ⟨-1.5, 0, 1⟩] [] =
      [⟨0.5, 0.5, 0.5⟩, ⟨-1.5, 0, 1⟩] := by
  have h := Octree.new_eq (size := 4) (r := 1) 2 (by norm_num) (by intro j hj; interval_cases j <;> norm_num)
  have ht : (1e-10 : ℝ) ≤ 4 / 2 ^ 2 := by norm_num
  obtain ⟨t, e⟩ := C36_no_fault_partial 4 1 _ [.add ⟨1, 1, 1⟩, .clear, .add ⟨0.5, 0.5, 0.5⟩, .add ⟨-1.5, 0, 1⟩] (by norm_num) h ht
    (by simp)
  exact ⟨_, t, h, ht, by simp [Untraced], e, rfl⟩

/-- C36 fails for cells below the tolerance 1e-10: size 1e-10 with resolution 5e-11 marks the whole tree, a
cube twice the resolution. -/
theorem C36_tiny_wrong : ∃ t0 t, Octree.new 1e-10 5e-11 = .ok t0 ∧ t0.getResolution = 5e-11 ∧
    t0.run [.add ⟨1e-11, 1e-11, 1e-11⟩] = .ok t ∧
    t.getCubes.map (fun b => (b.lo, b.hi)) = [(⟨-5e-11, -5e-11, -5e-11⟩, ⟨5e-11, 5e-11, 5e-11⟩)] := by
  have h := Octree.new_eq (size := 1e-10) (r := 5e-11) 1 (by norm_num) (by
    intro j hj; interval_cases j; norm_num)
  have e : ((1e-10 : ℝ) / 2 ^ 1) = 5e-11 := by norm_num
  rw [e] at h
  have ha : ∀ p : Vec3, (unbounded fun n => OctNode.add 5e-11 n (OctNode.new 1e-10) p) =
      .ok (.node 1e-10 true fun _ => .null) := by
    intro p
    refine (OctNode.add_steady _ _ _).eq (n := 1) ?_ (by simp)
    simp only [OctNode.new, OctNode.add]
    rw [if_pos (by norm_num)]
  refine ⟨_, ⟨5e-11, ⟨-1e-10 / 2, -1e-10 / 2, -1e-10 / 2⟩, ⟨1e-10 / 2, 1e-10 / 2, 1e-10 / 2⟩, 1e-10,
      .node 1e-10 true fun _ => .null, Mesh.new, Shape.new⟩, h, rfl, ?_, ?_⟩
  · simp only [Octree.run, Octree.step, Octree.add, ha, bind, Except.bind, pure, Except.pure]
    rfl
  · simp only [Octree.getCubes, OctNode.getCubes, if_true, List.map_cons, List.map_nil, Box.new_lo, Box.new_hi]
    congr 1
    ext <;> norm_num

/-! ## C37 -/

/-- C37, partial: full statement: after any history, `contains q` is true iff the cell of `q` is occupied, for
`q` in the tree's cube, and false outside. This holds outside, and inside for points whose cell number on each
axis is of the form `2^j - 1`; for other cells it fails, see `C37_contains_wrong`. -/
theorem C37_contains_partial (size : ℝ) (t : Octree) (n : ℕ) (S : ℕ × ℕ × ℕ → Prop) (h : OctReach size t)
    (hn : t.resolution * n = size) (hS : Shows t t.resolution t.offset S) (q : Vec3) :
    (¬ InBox t.offset t.max q → t.contains q = false) ∧
    (∀ i j l, InBox t.offset t.max q →
      InCell t.resolution n t.offset (2 ^ i - 1, 2 ^ j - 1, 2 ^ l - 1) q →
      (t.contains q = true ↔ S (2 ^ i - 1, 2 ^ j - 1, 2 ^ l - 1))) := by
  obtain ⟨k, hg⟩ := Octree.reach_good h
  have hpos := hg.pos
  have hnk : n = 2 ^ k := by
    have : t.resolution * n = t.resolution * ((2 ^ k : ℕ) : ℝ) := by rw [hn]; push_cast; exact hg.res.symm
    exact_mod_cast mul_left_cancel₀ hpos.ne' this
  subst hnk
  constructor
  · intro hout
    unfold Octree.contains
    rw [if_pos]
    by_contra hc
    push Not at hc
    exact hout ⟨hc.1, hc.2.2.2.1, hc.2.1, hc.2.2.2.2.1, hc.2.2.1, hc.2.2.2.2.2⟩
  · intro i j l hin hc
    rw [contains_eq hg hin, Octree.shows_unique hpos hS (Octree.good_shows hg)]
    have b1 := OctNode.bugIdx_ones k hpos i hc.1
    have b2 := OctNode.bugIdx_ones k hpos j hc.2.1
    have b3 := OctNode.bugIdx_ones k hpos l hc.2.2
    rw [hg.res] at b1 b2 b3
    unfold OctNode.bugCell
    simp only [Vec3.sub_x, Vec3.sub_y, Vec3.sub_z, b1, b2, b3]

/-- C37, what is computed instead: for a point of the tree, `contains` is true iff the cell is occupied whose number on each
axis is that of the cell of the point with all binary digits below the leading one set. -/
theorem C37_computed (size : ℝ) (t : Octree) (n : ℕ) (S : ℕ × ℕ × ℕ → Prop) (h : OctReach size t)
    (hn : t.resolution * n = size) (hS : Shows t t.resolution t.offset S) (q : Vec3) (hq : InBox t.offset t.max q)
    {a b c : ℕ} (hc : InCell t.resolution n t.offset (a, b, c) q) {i j l : ℕ} (ha : a < 2 ^ i ∧ (i = 0 ∨ 2 ^ (i - 1) ≤ a))
    (hb : b < 2 ^ j ∧ (j = 0 ∨ 2 ^ (j - 1) ≤ b)) (hl : c < 2 ^ l ∧ (l = 0 ∨ 2 ^ (l - 1) ≤ c)) :
    t.contains q = true ↔ S (2 ^ i - 1, 2 ^ j - 1, 2 ^ l - 1) := by
  obtain ⟨k, hg⟩ := Octree.reach_good h
  have hpos := hg.pos
  have hnk : n = 2 ^ k := by
    have : t.resolution * n = t.resolution * ((2 ^ k : ℕ) : ℝ) := by rw [hn]; push_cast; exact hg.res.symm
    exact_mod_cast mul_left_cancel₀ hpos.ne' this
  subst hnk
  rw [contains_eq hg hq, Octree.shows_unique hpos hS (Octree.good_shows hg)]
  have b1 := OctNode.bugIdx_slab k hpos hc.1 ha.1 ha.2
  have b2 := OctNode.bugIdx_slab k hpos hc.2.1 hb.1 hb.2
  have b3 := OctNode.bugIdx_slab k hpos hc.2.2 hl.1 hl.2
  rw [hg.res] at b1 b2 b3
  unfold OctNode.bugCell
  simp only [Vec3.sub_x, Vec3.sub_y, Vec3.sub_z, b1, b2, b3]

/-- A case of the above: the cell (2, 2, 2) of a tree of size 4 with unit cells, answered from the cell (3, 3, 3). -/
example : ∃ (t : Octree) (n : ℕ) (S : ℕ × ℕ × ℕ → Prop), OctReach 4 t ∧ t.resolution * n = 4 ∧ Shows t t.resolution t.offset S ∧
    InBox t.offset t.max ⟨0.5, 0.5, 0.5⟩ ∧ InCell t.resolution n t.offset (2, 2, 2) ⟨0.5, 0.5, 0.5⟩ ∧
    2 < 2 ^ 2 ∧ 2 ^ (2 - 1) ≤ 2 := by
  obtain ⟨t0, t, h1, h2, h3, h3', h5, -⟩ := single (size := 4) (r := 1) 2 (by norm_num) (by norm_num)
    (by intro j hj; interval_cases j <;> norm_num) (by norm_num) ⟨1.5, 1.5, 1.5⟩
  refine ⟨t, 4, _, h5, ?_, Octree.good_shows h3, ?_, ?_, by norm_num, by norm_num⟩
  · rw [h3']; norm_num
  · rw [h3.off, h3.max]; norm_num [InBox]
  · rw [h3.off, h3']; norm_num [InCell, InSlab]

/-- C37 fails: in a tree of size 4 with unit cells, a point just added is not contained, and another
point is contained although it lies in no reported cube. -/
theorem C37_contains_wrong :
    (∃ t0 t, Octree.new 4 1 = .ok t0 ∧ t0.run [.add ⟨0.5, 0.5, 0.5⟩] = .ok t ∧
      t.contains ⟨0.5, 0.5, 0.5⟩ = false) ∧
    (∃ t0 t, Octree.new 4 1 = .ok t0 ∧ t0.run [.add ⟨1.5, 1.5, 1.5⟩] = .ok t ∧
      t.contains ⟨0.5, 0.5, 0.5⟩ = true ∧ ∀ b ∈ t.getCubes, ¬ InBox b.lo b.hi ⟨0.5, 0.5, 0.5⟩) := by
  have hh : ∀ j < 2, (1:ℝ) < 4 / 2 ^ j := by intro j hj; interval_cases j <;> norm_num
  have i1 : OctNode.bugIdx 2 4 2.5 = 3 := by norm_num [OctNode.bugIdx]
  have i2 : axisIdx 2 4 2.5 = 2 := by norm_num [axisIdx]
  have i3 : axisIdx 2 4 3.5 = 3 := by norm_num [axisIdx]
  have e1 : (0.5 - -4 / 2 : ℝ) = 2.5 := by norm_num
  have e2 : (1.5 - -4 / 2 : ℝ) = 3.5 := by norm_num
  constructor
  · obtain ⟨t0, t, h1, h2, h3, -, -, -, -, h4⟩ := single (size := 4) (r := 1) 2 (by norm_num) (by norm_num) hh
      (by norm_num) ⟨0.5, 0.5, 0.5⟩
    refine ⟨t0, t, h1, h2, ?_⟩
    rw [← Bool.not_eq_true, contains_eq h3 (by rw [h3.off, h3.max]; norm_num [InBox]), h4, h3.off]
    simp only [OctNode.bugCell, OctNode.cellOf, Vec3.sub_x, Vec3.sub_y, Vec3.sub_z, e1, i1, i2]
    simp
  · obtain ⟨t0, t, h1, h2, h3, h3', -, -, -, h4⟩ := single (size := 4) (r := 1) 2 (by norm_num) (by norm_num) hh
      (by norm_num) ⟨1.5, 1.5, 1.5⟩
    refine ⟨t0, t, h1, h2, ?_, ?_⟩
    · rw [contains_eq h3 (by rw [h3.off, h3.max]; norm_num [InBox]), h4, h3.off]
      simp only [OctNode.bugCell, OctNode.cellOf, Vec3.sub_x, Vec3.sub_y, Vec3.sub_z, e1, e2, i1, i3]
    · obtain ⟨cells, -, c2, c3⟩ := Octree.good_shows h3
      intro b hb
      rw [c3] at hb
      obtain ⟨c, hc, rfl⟩ := List.mem_map.1 hb
      rw [c2, h4] at hc
      simp only [OctNode.cellOf, Vec3.sub_x, e2, Vec3.sub_y, Vec3.sub_z, i3] at hc
      subst hc
      rw [h3', h3.off]
      norm_num [InBox, cellLo, cellHi]

/-- C37 case: in the tree of the counterexample the cell (3, 3, 3), of the form `2^2 - 1`. -/
example : ∃ (t : Octree) (n : ℕ) (S : ℕ × ℕ × ℕ → Prop), OctReach 4 t ∧ t.resolution * n = 4 ∧ Shows t t.resolution t.offset S ∧
    InBox t.offset t.max ⟨1.5, 1.5, 1.5⟩ ∧
    InCell t.resolution n t.offset (2 ^ 2 - 1, 2 ^ 2 - 1, 2 ^ 2 - 1) ⟨1.5, 1.5, 1.5⟩ := by
  obtain ⟨t0, t, h1, h2, h3, h3', h5, -⟩ := single (size := 4) (r := 1) 2 (by norm_num) (by norm_num)
    (by intro j hj; interval_cases j <;> norm_num) (by norm_num) ⟨1.5, 1.5, 1.5⟩
  refine ⟨t, 4, _, h5, ?_, Octree.good_shows h3, ?_, ?_⟩
  · rw [h3']; norm_num
  · rw [h3.off, h3.max]; norm_num [InBox]
  · rw [h3.off, h3']; norm_num [InCell, InSlab]

/-! ## C38 -/

/-- C38: for a proper box, the box query is true iff the box and the tree share a point whose cell is
occupied. -/
theorem C38_box (size : ℝ) (t : Octree) (n : ℕ) (S : ℕ × ℕ × ℕ → Prop) (h : OctReach size t)
    (hn : t.resolution * n = size) (hS : Shows t t.resolution t.offset S) (b : Box) (hb : Proper b.lo b.hi) :
    t.intersectBox b = true ↔
      ∃ q c, InBox b.lo b.hi q ∧ InBox t.offset t.max q ∧ InCell t.resolution n t.offset c q ∧ S c := by
  obtain ⟨k, hg⟩ := Octree.reach_good h
  have hpos := hg.pos
  have hspos := hg.size_pos
  have hnk : n = 2 ^ k := by
    have : t.resolution * n = t.resolution * ((2 ^ k : ℕ) : ℝ) := by rw [hn]; push_cast; exact hg.res.symm
    exact_mod_cast mul_left_cancel₀ hpos.ne' this
  subst hnk
  have hS' := Octree.shows_unique hpos hS (Octree.good_shows hg)
  simp only [hS']
  obtain ⟨p1, p2, p3⟩ := hb
  have om : ∀ a : ℝ, a = -size / 2 → ∀ m : ℝ, m = size / 2 → a ≤ m := by rintro a rfl m rfl; linarith
  have ox : t.offset.x ≤ t.max.x := om _ (by rw [hg.off]) _ (by rw [hg.max])
  have oy : t.offset.y ≤ t.max.y := om _ (by rw [hg.off]) _ (by rw [hg.max])
  have oz : t.offset.z ≤ t.max.z := om _ (by rw [hg.off]) _ (by rw [hg.max])
  unfold Octree.intersectBox
  split_ifs with hc
  · simp only [false_iff]
    rintro ⟨q, c, ⟨a1, a2, a3, a4, a5, a6⟩, ⟨b1, b2, b3, b4, b5, b6⟩, -⟩
    rcases hc with hc | hc | hc | hc | hc | hc <;> linarith
  · push Not at hc
    obtain ⟨h1, h2, h3, h4, h5, h6⟩ := hc
    rw [OctNode.intersectBox_spec hpos k (Octree.root_wf hg)]
    unfold OctNode.Between OctNode.cellOf
    simp only [Vec3.sub_x, Vec3.sub_y, Vec3.sub_z]
    have ax := fun c => axis_between hpos (k := k) (c := c)
      (a := Max.max b.lo.x t.offset.x - t.offset.x) (b := min b.hi.x t.max.x - t.offset.x)
      (by have := max_le (le_min p1 h4) (le_min h1 ox); linarith)
    have ay := fun c => axis_between hpos (k := k) (c := c)
      (a := Max.max b.lo.y t.offset.y - t.offset.y) (b := min b.hi.y t.max.y - t.offset.y)
      (by have := max_le (le_min p2 h5) (le_min h2 oy); linarith)
    have az := fun c => axis_between hpos (k := k) (c := c)
      (a := Max.max b.lo.z t.offset.z - t.offset.z) (b := min b.hi.z t.max.z - t.offset.z)
      (by have := max_le (le_min p3 h6) (le_min h3 oz); linarith)
    have cl : ∀ {l m o u x : ℝ}, Max.max l o - o ≤ x → x ≤ min u m - o →
        (l ≤ x + o ∧ x + o ≤ u) ∧ o ≤ x + o ∧ x + o ≤ m := by
      intro l m o u x g1 g2
      have := le_max_left l o
      have := le_max_right l o
      have := min_le_left u m
      have := min_le_right u m
      refine ⟨⟨?_, ?_⟩, ?_, ?_⟩ <;> linarith
    constructor
    · rintro ⟨c, hcc, d1, d2, d3⟩
      obtain ⟨x, x1, x2, x3⟩ := (ax c.1).1 d1
      obtain ⟨y, y1, y2, y3⟩ := (ay c.2.1).1 d2
      obtain ⟨z, z1, z2, z3⟩ := (az c.2.2).1 d3
      obtain ⟨⟨k1, k2⟩, k3, k4⟩ := cl x1 x2
      obtain ⟨⟨l1, l2⟩, l3, l4⟩ := cl y1 y2
      obtain ⟨⟨m1, m2⟩, m3, m4⟩ := cl z1 z2
      refine ⟨⟨x + t.offset.x, y + t.offset.y, z + t.offset.z⟩, c, ⟨k1, k2, l1, l2, m1, m2⟩,
        ⟨k3, k4, l3, l4, m3, m4⟩, ⟨?_, ?_, ?_⟩, hcc⟩
      · simpa using x3
      · simpa using y3
      · simpa using z3
    · rintro ⟨q, c, ⟨a1, a2, a3, a4, a5, a6⟩, ⟨b1, b2, b3, b4, b5, b6⟩, ⟨c1, c2, c3⟩, hcc⟩
      refine ⟨c, hcc, (ax c.1).2 ⟨_, ?_, ?_, c1⟩, (ay c.2.1).2 ⟨_, ?_, ?_, c2⟩, (az c.2.2).2 ⟨_, ?_, ?_, c3⟩⟩
      · have := max_le a1 b1; linarith
      · have := le_min a2 b2; linarith
      · have := max_le a3 b3; linarith
      · have := le_min a4 b4; linarith
      · have := max_le a5 b5; linarith
      · have := le_min a6 b6; linarith

/-- C38: after any history without ray tracing, the box query is true for a box holding a live point inside
the tree; and if it is true, some reported cube overlaps the box. -/
theorem C38_added_partial (size request : ℝ) (t0 t : Octree) (ops : List Octree.Op) (hs : 0 < size)
    (hr : 0 < request) (h0 : Octree.new size request = .ok t0) (htol : 1e-10 ≤ t0.resolution)
    (hq : Untraced ops) (hrun : t0.run ops = .ok t) (b : Box) (hb : Proper b.lo b.hi) :
    (∀ p ∈ live ops [], InBox b.lo b.hi p → InBox t.offset t.max p → t.intersectBox b = true) ∧
    (t.intersectBox b = true → ∃ e ∈ t.getCubes, ∃ q, InBox b.lo b.hi q ∧ InBox e.lo e.hi q) := by
  obtain ⟨n, n1, n2, n3, hS, -, -⟩ := C36_cubes_partial size request t0 t ops hr h0 htol hq hrun
  have hreach : OctReach size t := ⟨hs, n2 ▸ htol, request, t0, ops, hr, h0, untraced_ok hq, hrun⟩
  have hbox := C38_box size t n _ hreach (by rw [n2]; exact n1) hS b hb
  obtain ⟨k, hg⟩ := Octree.reach_good hreach
  have hpos := hg.pos
  constructor
  · intro p hp h1 h2
    have hnk : n = 2 ^ k := by
      have : t.resolution * n = t.resolution * ((2 ^ k : ℕ) : ℝ) := by
        rw [n2, n1]; push_cast; rw [← n2]; exact hg.res.symm
      exact_mod_cast mul_left_cancel₀ hpos.ne' this
    have hc := (Octree.cell_iff hg p _).1 rfl
    rw [← hnk] at hc
    exact hbox.2 ⟨p, _, h1, h2, hc, p, hp, hc⟩
  · intro hit
    obtain ⟨q, c, h1, h2, h3, h4⟩ := hbox.1 hit
    obtain ⟨cells, -, c2, c3⟩ := hS
    refine ⟨_, by rw [c3]; exact List.mem_map.2 ⟨c, (c2 c).2 h4, rfl⟩, q, h1, ?_⟩
    have slab : ∀ (j : ℕ) (x : ℝ), InSlab t.resolution n j x → 0 ≤ x → x ≤ size →
        j * t.resolution ≤ x ∧ x ≤ (j + 1) * t.resolution := by
      rintro j x ⟨s1, s2, s3⟩ hx hx'
      constructor
      · rcases s2 with s2 | s2
        · rw [s2]; simpa using hx
        · exact s2.le
      · rcases s3 with s3 | s3
        · have : ((j:ℝ) + 1) = (n : ℝ) := by exact_mod_cast s3
          rw [this, mul_comm, n2, n1]; exact hx'
        · exact s3
    obtain ⟨i1, i2, i3, i4, i5, i6⟩ := h2
    rw [hg.off] at h3 i1 i3 i5 ⊢
    rw [hg.max] at i2 i4 i6
    obtain ⟨s1, s2, s3⟩ := h3
    simp only at s1 s2 s3 i1 i2 i3 i4 i5 i6
    have d1 := slab _ _ s1 (by linarith) (by linarith)
    have d2 := slab _ _ s2 (by linarith) (by linarith)
    have d3 := slab _ _ s3 (by linarith) (by linarith)
    simp only [Box.new_lo, Box.new_hi, InBox, cellLo, cellHi]
    refine ⟨?_, ?_, ?_, ?_, ?_, ?_⟩ <;> linarith

/-- C38 case. -/
example : ∃ (t : Octree) (n : ℕ) (S : ℕ × ℕ × ℕ → Prop), OctReach 4 t ∧ t.resolution * n = 4 ∧ Shows t t.resolution t.offset S ∧
    Proper (Box.new ⟨0, 0, 0⟩ ⟨1, 1, 1⟩).lo (Box.new ⟨0, 0, 0⟩ ⟨1, 1, 1⟩).hi ∧
    t.intersectBox (Box.new ⟨0, 0, 0⟩ ⟨1, 1, 1⟩) = true ∧
    t.intersectBox (Box.new ⟨1.1, 0, 0⟩ ⟨2, 1, 1⟩) = false := by
  obtain ⟨t0, t, h1, h2, h3, h3', h5, -, -, h6⟩ := single (size := 4) (r := 1) 2 (by norm_num) (by norm_num)
    (by intro j hj; interval_cases j <;> norm_num) (by norm_num) ⟨0.5, 0.5, 0.5⟩
  have hp : Proper (Box.new ⟨0, 0, 0⟩ ⟨1, 1, 1⟩).lo (Box.new ⟨0, 0, 0⟩ ⟨1, 1, 1⟩).hi := by
    rw [Box.new_lo, Box.new_hi]; norm_num [Proper]
  have hp' : Proper (Box.new ⟨1.1, 0, 0⟩ ⟨2, 1, 1⟩).lo (Box.new ⟨1.1, 0, 0⟩ ⟨2, 1, 1⟩).hi := by
    rw [Box.new_lo, Box.new_hi]; norm_num [Proper]
  have hn : t.resolution * (4:ℕ) = 4 := by rw [h3']; norm_num
  have e1 : (0.5 - -4 / 2 : ℝ) = 2.5 := by norm_num
  have i2 : axisIdx 2 4 2.5 = 2 := by norm_num [axisIdx]
  refine ⟨t, 4, _, h5, hn, Octree.good_shows h3, hp, ?_, ?_⟩
  · rw [C38_box 4 t 4 _ h5 hn (Octree.good_shows h3) _ hp]
    refine ⟨⟨0.5, 0.5, 0.5⟩, (2, 2, 2), ?_, ?_, ?_, ?_⟩
    · rw [Box.new_lo, Box.new_hi]; norm_num [InBox]
    · rw [h3.off, h3.max]; norm_num [InBox]
    · rw [h3.off, h3']; norm_num [InCell, InSlab]
    · rw [h6]; simp only [OctNode.cellOf, Vec3.sub_x, e1, Vec3.sub_y, Vec3.sub_z, i2]
  · rw [← Bool.not_eq_true, C38_box 4 t 4 _ h5 hn (Octree.good_shows h3) _ hp']
    rintro ⟨q, c, a1, -, a2, a3⟩
    rw [h6] at a3
    simp only [OctNode.cellOf, Vec3.sub_x, e1, Vec3.sub_y, Vec3.sub_z, i2] at a3
    subst a3
    rw [Box.new_lo, Box.new_hi] at a1
    rw [h3.off, h3'] at a2
    have b1 := a1.1
    rcases a2.1.2.2 with b2 | b2
    · omega
    · norm_num at b1 b2; linarith

/-- C38 is false for points outside the tree: after adding a point to a tree of size 1, the box query is false for a box
around the point. -/
theorem C38_outside_wrong : ∃ (t0 t : Octree), Octree.new 1 1 = .ok t0 ∧ 1e-10 ≤ t0.resolution ∧
    t0.run [.add ⟨5, 0, 0⟩] = .ok t ∧ Proper (Box.new ⟨4, -1, -1⟩ ⟨6, 1, 1⟩).lo (Box.new ⟨4, -1, -1⟩ ⟨6, 1, 1⟩).hi ∧
    InBox (Box.new ⟨4, -1, -1⟩ ⟨6, 1, 1⟩).lo (Box.new ⟨4, -1, -1⟩ ⟨6, 1, 1⟩).hi ⟨5, 0, 0⟩ ∧
    ⟨5, 0, 0⟩ ∈ live [.add ⟨5, 0, 0⟩] [] ∧ t.intersectBox (Box.new ⟨4, -1, -1⟩ ⟨6, 1, 1⟩) = false := by
  obtain ⟨t0, t, h1, h2, h3, h3', h5, -⟩ := single (size := 1) (r := 1) 0 (by norm_num) (by norm_num)
    (by intro j hj; omega) (by norm_num) ⟨5, 0, 0⟩
  refine ⟨t0, t, ?_, ?_, h2, ?_, ?_, by simp [live], ?_⟩
  · exact h1
  · rw [Octree.new_eq 0 (by norm_num) (by intro j hj; omega), Except.ok.injEq] at h1
    rw [← h1]
    norm_num
  · rw [Box.new_lo, Box.new_hi]; norm_num [Proper]
  · rw [Box.new_lo, Box.new_hi]; norm_num [InBox]
  · unfold Octree.intersectBox
    rw [if_pos]
    rw [Box.new_lo, h3.max]
    norm_num

/-! ## C39 -/

/-- C39, partial: full statement: if the ray cast reports a hit then the distance was written, and is the
parameter of a point of an occupied cube within `[t0, t1]`; a hit is reported whenever the ray meets an
occupied cube within `[t0, t1]`; the cast always ends.
Proved for every ray, that it ends without a fault. For oblique rays, that a hit comes with a parameter `s ≥ t0`
at which the ray is in an occupied cube, and the distance is `s` less a tenth of a cell, unless it was left
unwritten. For oblique rays that start at parameter 0 or inside the tree, a hit is reported if the ray
crosses an occupied cube by more than a tenth of a cell, and then a written distance is at most the
parameter of entry of any such cube. Missing: see the counterexamples below. -/
theorem C39_ray_partial (size : ℝ) (t : Octree) (S : ℕ × ℕ × ℕ → Prop) (h : OctReach size t)
    (hS : Shows t t.resolution t.offset S) (o d u : Vec3) (hu : UnitAlong d u) (t0 t1 d0 : ℝ) :
    ∃ hit d', t.intersectRay (Ray.new o d) t0 t1 d0 = .ok (hit, d') ∧
      (Oblique u → t0 < t1 → hit = true → ∃ s c, t0 ≤ s ∧ S c ∧
        InBox (cellLo t.resolution t.offset c) (cellHi t.resolution t.offset c) (along o u s) ∧
        (d' = d0 ∨ d' = s - t.resolution / 10)) ∧
      (∀ c x y, Oblique u → t0 < t1 → S c → Crosses t.resolution t.offset o u c x y →
        (t0 = 0 ∧ 0 ≤ x) ∨ (InBox t.offset t.max o ∧ 0 ≤ t0 ∧ t0 ≤ x) →
        (∃ s, t0 < s ∧ s < t1 ∧ InBox t.offset t.max (along o u s)) →
        hit = true ∧ (d' = d0 ∨ d' ≤ x)) := by
  obtain ⟨k, hg⟩ := Octree.reach_good h
  have hpos := hg.pos
  have hr : 0 < t.resolution * 0.1 := mul_pos hpos (by norm_num)
  have hten : t.resolution * 0.1 = t.resolution / 10 := by norm_num; ring
  have hS' := Octree.shows_unique hpos hS (Octree.good_shows hg)
  cases hh : ((Box.new t.offset t.max).intersectRay (Ray.new o d) t0 t1 0).1 with
  | false =>
    refine ⟨false, d0, ?_, by simp, ?_⟩
    · unfold Octree.intersectRay; simp [hh]
    · intro c x y hob ht hc hcr hx hin
      have := (box_hit hg hu hob (o := o) ht).1.2 hin
      rw [hh] at this
      exact absurd this (by simp)
  | true =>
    obtain ⟨hit, d', f, h1, h2⟩ := Octree.intersectRay_good hg hu t0 t1 d0 hh
    obtain ⟨s1, s2⟩ := OctNode.intersectRay_spec hpos (Octree.unit_of hu) t1 f k t.root (o - t.offset)
      (t.start (Ray.new o d) t0 t1) d0 hit d' (Octree.root_wf hg) h2
    refine ⟨hit, d', h1, ?_, ?_⟩
    · intro hob ht hhit
      obtain ⟨s, c, a1, a2, a3, a4, -⟩ := s1 hhit
      have hge := Octree.start_ge hg (Ray.new o d) t0 t1
      rcases a3 with a3 | ⟨rfl, a3⟩
      · refine ⟨s, c, hge.trans a1, (hS' c).2 a2, ?_, ?_⟩
        · rw [OctNode.along_sub, Octree.near_iff] at a3; exact a3
        · rw [← hten]
          rcases a4 with a4 | a4
          · exact Or.inl a4.2
          · exact Or.inr a4.2
      · have h0 : d' = d0 := by
          rcases a4 with a4 | a4
          · exact a4.2
          · linarith [a4.1]
        obtain ⟨s', b1, -, b3⟩ := (box_hit hg hu hob (o := o) ht).1.1 hh
        refine ⟨s', c, b1.le, (hS' c).2 a2, ?_, Or.inl h0⟩
        have hc0 : c = (0, 0, 0) := by
          cases hroot : t.root with
          | null => exact absurd hroot hg.root
          | node a b ch => rw [hroot] at a2; exact a2.2
        have hsz : t.resolution = size := by simpa using hg.res
        rw [hc0, hsz, hg.off]
        rw [hg.off, hg.max] at b3
        obtain ⟨e1, e2, e3, e4, e5, e6⟩ := b3
        simp only [InBox, cellLo, cellHi, Nat.cast_zero, zero_mul, add_zero, zero_add, one_mul]
        simp only at e1 e2 e3 e4 e5 e6
        refine ⟨?_, ?_, ?_, ?_, ?_, ?_⟩ <;> linarith
    · intro c x y hob ht hc hcr hx hin
      have hth := (Octree.thick_iff t.resolution t.offset o u c x y).2 hcr
      have hcc := (hS' c).1 hc
      obtain ⟨-, g2, g3⟩ := start_in hg hu hob ht hcc hth hx hin
      have hhit := s2 c x y hcc hth g2 g3
      refine ⟨hhit, ?_⟩
      obtain ⟨s, c', a1, a2, a3, a4, a5⟩ := s1 hhit
      rcases a4 with a4 | a4
      · exact Or.inl a4.2
      · right
        have := a5 c x y hcc hth g2 g3
        rw [a4.2]; linarith

/-- C39 case: a ray from outside the tree that crosses the occupied cell. -/
example : ∃ t S, OctReach 2 t ∧ Shows t t.resolution t.offset S ∧ S (1, 1, 1) ∧
    UnitAlong ⟨1, 2, 2⟩ ⟨1 / 3, 2 / 3, 2 / 3⟩ ∧ Oblique ⟨1 / 3, 2 / 3, 2 / 3⟩ ∧
    Crosses t.resolution t.offset ⟨-1, -2, -2⟩ ⟨1 / 3, 2 / 3, 2 / 3⟩ (1, 1, 1) 3 4.5 ∧
    ∃ s, 0 < s ∧ s < 10 ∧ InBox t.offset t.max (along ⟨-1, -2, -2⟩ ⟨1 / 3, 2 / 3, 2 / 3⟩ s) := by
  obtain ⟨t0, t, -, -, h3, h4, h5, h6, h7, h8, -⟩ := tree2
  refine ⟨t, _, h5, Octree.good_shows h3, (h8 _).2 rfl, unit122.1, unit122.2, ⟨?_, ?_⟩, 4, ?_⟩
  · rw [h4]; norm_num
  · intro s s1 s2
    rw [h4, h6]
    simp only [cellLo, cellHi, along, Nat.cast_one]
    norm_num at s2
    refine ⟨?_, ?_, ?_, ?_, ?_, ?_⟩ <;> linarith
  · rw [h6, h7]; norm_num [InBox, along]

/-- C39 fails: the distance is not written if the first probe is in an occupied cell. Here the ray enters the
only cube, which is the whole tree, at parameter 2.25. -/
theorem C39_unwritten_wrong : ∃ t0 t, Octree.new 1 1 = .ok t0 ∧ t0.run [.add ⟨0, 0, 0⟩] = .ok t ∧
    ∀ d0, t.intersectRay (Ray.new ⟨-1, -2, -2⟩ ⟨1, 2, 2⟩) 0 10 d0 = .ok (true, d0) := by
  obtain ⟨t0, t, h1, h2, h3, h4, -, -, -, h6⟩ := single (size := 1) (r := 1) 0 (by norm_num) (by norm_num)
    (by simp) (by norm_num) ⟨0, 0, 0⟩
  refine ⟨t0, t, h1, h2, fun d0 => ?_⟩
  have hh := (box_hit h3 unit122.1 unit122.2 (o := ⟨-1, -2, -2⟩) (t0 := 0) (t1 := 10) (by norm_num)).1.2
    ⟨3, by norm_num, by norm_num, by rw [h3.off, h3.max]; norm_num [InBox, along]⟩
  obtain ⟨hit, d', f, a1, a2⟩ := Octree.intersectRay_good h3 unit122.1 0 10 d0 hh
  rw [a1]
  have ho : OctNode.Occ 0 t.root (0, 0, 0) := by rw [h6]; rfl
  cases hroot : t.root with
  | null => exact absurd hroot h3.root
  | node s oc ch =>
    rw [hroot] at ho a2
    rw [ho.1] at a2
    cases f with
    | zero => simp [OctNode.intersectRay] at a2
    | succ f =>
      rw [OctNode.intersectRay_occ] at a2
      exact a2.symm

/-- C39 fails: the end of the range is ignored by the search: a hit is reported although the ray meets no
cube up to `t1 = 0.05`. -/
theorem C39_range_wrong : ∃ t0 t d', Octree.new 2 1 = .ok t0 ∧ t0.run [.add ⟨0.5, 0.5, 0.5⟩] = .ok t ∧
    t.intersectRay (Ray.new ⟨-0.02, -0.02, -0.02⟩ ⟨1, 2, 2⟩) 0 0.05 0 = .ok (true, d') ∧
    UnitAlong ⟨1, 2, 2⟩ ⟨1 / 3, 2 / 3, 2 / 3⟩ ∧
    ∀ s, 0 ≤ s → s ≤ 0.05 → ∀ b ∈ t.getCubes,
      ¬ InBox b.lo b.hi (along ⟨-0.02, -0.02, -0.02⟩ ⟨1 / 3, 2 / 3, 2 / 3⟩ s) := by
  obtain ⟨t0, t, h1, h2, h3, h4, h5, h6, h7, h8, h9⟩ := tree2
  obtain ⟨hit, d', a1, -, a2⟩ := C39_ray_partial 2 t _ h5 (Octree.good_shows h3) ⟨-0.02, -0.02, -0.02⟩ ⟨1, 2, 2⟩ _
    unit122.1 0 0.05 0
  have := a2 (1, 1, 1) 0.06 1.53 unit122.2 (by norm_num) ((h8 _).2 rfl) ⟨by rw [h4]; norm_num, by
      intro s s1 s2
      rw [h4, h6]
      simp only [cellLo, cellHi, along, Nat.cast_one]
      norm_num at s1 s2
      refine ⟨?_, ?_, ?_, ?_, ?_, ?_⟩ <;> norm_num <;> linarith⟩ (Or.inl ⟨rfl, by norm_num⟩)
    ⟨0.01, by norm_num, by norm_num, by rw [h6, h7]; norm_num [InBox, along]⟩
  rw [this.1] at a1
  refine ⟨t0, t, d', h1, h2, a1, unit122.1, ?_⟩
  intro s s1 s2 b hb
  rw [h9, List.mem_singleton] at hb
  subst hb
  rw [Box.new_lo, Box.new_hi]
  intro hin
  have := hin.1
  simp only [along] at this
  norm_num at this s2
  linarith

/-- C39 fails: the start of the range is counted twice if the ray starts outside the tree: the cube
that the ray crosses at parameter 10 is missed for the range from 9 to 20. -/
theorem C39_start_wrong : ∃ t0 t, Octree.new 2 1 = .ok t0 ∧ t0.run [.add ⟨0.5, 0.5, 0.5⟩] = .ok t ∧
    (∀ d0, ∃ d', t.intersectRay (Ray.new ⟨0.5 - 10 / 3, 0.5 - 20 / 3, 0.5 - 20 / 3⟩ ⟨1, 2, 2⟩) 9 20 d0 =
      .ok (false, d')) ∧
    UnitAlong ⟨1, 2, 2⟩ ⟨1 / 3, 2 / 3, 2 / 3⟩ ∧
    ∃ b ∈ t.getCubes, ∀ s, 9.5 ≤ s → s ≤ 10.5 →
      InBox b.lo b.hi (along ⟨0.5 - 10 / 3, 0.5 - 20 / 3, 0.5 - 20 / 3⟩ ⟨1 / 3, 2 / 3, 2 / 3⟩ s) := by
  obtain ⟨t0, t, h1, h2, h3, h4, h5, h6, h7, h8, h9⟩ := tree2
  refine ⟨t0, t, h1, h2, fun d0 => ?_, unit122.1, Box.new ⟨0, 0, 0⟩ ⟨1, 1, 1⟩, by rw [h9]; simp, ?_⟩
  · have hb := box_hit h3 unit122.1 unit122.2 (o := ⟨0.5 - 10 / 3, 0.5 - 20 / 3, 0.5 - 20 / 3⟩) (t0 := 9) (t1 := 20)
      (by norm_num)
    have hh := hb.1.2 ⟨10, by norm_num, by norm_num, by rw [h6, h7]; norm_num [InBox, along]⟩
    have hl := (hb.2 hh).1.2.2.1
    obtain ⟨hit, d', f, a1, a2⟩ := Octree.intersectRay_good h3 unit122.1 9 20 d0 hh
    obtain ⟨s1, -⟩ := OctNode.intersectRay_spec h3.pos (Octree.unit_of unit122.1) 20 f 1 t.root _ _ d0 hit d'
      (Octree.root_wf h3) a2
    cases hit with
    | false => exact ⟨d', a1⟩
    | true =>
      exfalso
      obtain ⟨s, c, b1, b2, b3, -⟩ := s1 rfl
      rcases b3 with b3 | b3
      · rw [(h8 c).1 b2, OctNode.along_sub, Octree.near_iff, h4, h6] at b3
        have b4 := b3.2.2.2.1
        have b5 := le_max_left ((Box.new t.offset t.max).intersectRay
          (Ray.new ⟨0.5 - 10 / 3, 0.5 - 20 / 3, 0.5 - 20 / 3⟩ ⟨1, 2, 2⟩) 9 20 0).2 0
        unfold Octree.start at b1
        rw [h4] at b1
        generalize ((Box.new t.offset t.max).intersectRay
          (Ray.new ⟨0.5 - 10 / 3, 0.5 - 20 / 3, 0.5 - 20 / 3⟩ ⟨1, 2, 2⟩) 9 20 0).2 = e at *
        generalize Max.max e 0 = m at *
        rw [h6] at hl
        simp only [along, cellHi] at hl b4
        norm_num at hl b4 b1
        linarith
      · exact absurd b3.1 (by norm_num)
  · intro s s1 s2
    rw [Box.new_lo, Box.new_hi]
    norm_num at s1 s2
    simp only [InBox, along]
    refine ⟨?_, ?_, ?_, ?_, ?_, ?_⟩ <;> norm_num <;> linarith

/-- C39 fails: a ray along an axis from outside misses every cube. -/
theorem C39_axis_parallel_wrong : ∃ t0 t, Octree.new 2 1 = .ok t0 ∧ t0.run [.add ⟨0.5, 0.5, 0.5⟩] = .ok t ∧
    (∀ d0, t.intersectRay (Ray.new ⟨0.5, 0.5, -5⟩ ⟨0, 0, 1⟩) 0 100 d0 = .ok (false, d0)) ∧
    ∃ b ∈ t.getCubes, ∀ s, 5 ≤ s → s ≤ 6 → InBox b.lo b.hi (along ⟨0.5, 0.5, -5⟩ ⟨0, 0, 1⟩ s) := by
  obtain ⟨t0, t, h1, h2, h3, h4, h5, h6, h7, h8, h9⟩ := tree2
  refine ⟨t0, t, h1, h2, fun d0 => ?_, Box.new ⟨0, 0, 0⟩ ⟨1, 1, 1⟩, by rw [h9]; simp, ?_⟩
  · have hh : ((Box.new t.offset t.max).intersectRay (Ray.new ⟨0.5, 0.5, -5⟩ ⟨0, 0, 1⟩) 0 100 0).1 = false := by
      rw [h6, h7, ← Bool.not_eq_true, C27_axis_parallel_partial _ _ _ _ ⟨0, 0, 1⟩ 0 100 0 (by norm_num [Proper])
        ⟨by norm_num, 1, by norm_num⟩ (by norm_num) (by norm_num)]
      norm_num
    unfold Octree.intersectRay
    simp [hh]
  · intro s s1 s2
    rw [Box.new_lo, Box.new_hi]
    simp only [InBox, along]
    norm_num
    constructor <;> linarith

/-! ## C40 -/

/-- C40, partial: full statement: as below for all rays. Missing: the two conclusions under `Oblique` for
rays almost parallel to an axis, see `C40_axis_parallel_wrong`.
Tracing along a ray always ends without a fault. Either the tree is unchanged, or afterwards the cell of the
end point is occupied (the outermost cells stand for everything beyond them), no other cell became
occupied, and every cell that became free holds a ray point with parameter between `t0` and `t1`. For
oblique rays the tree is unchanged if the ray misses the tree's cube within the range, and otherwise the second
case holds and cells crossed by more than a tenth of a cell before `t1` are free afterwards, unless they hold the
end point. -/
theorem C40_raytrace_partial (size : ℝ) (t : Octree) (n : ℕ) (S : ℕ × ℕ × ℕ → Prop) (h : OctReach size t)
    (hn : t.resolution * n = size) (hS : Shows t t.resolution t.offset S) (o d u : Vec3)
    (hu : UnitAlong d u) (t0 t1 : ℝ) :
    ∃ t' S', t.raytrace (Ray.new o d) t0 t1 = .ok t' ∧ OctReach size t' ∧
      Shows t' t.resolution t.offset S' ∧
      (t' = t ∨
        ((∀ c, InCell t.resolution n t.offset c (along o u t1) → S' c) ∧
        (∀ c, S' c → S c ∨ InCell t.resolution n t.offset c (along o u t1)) ∧
        (∀ c, S c → ¬ S' c → ∃ s, t0 ≤ s ∧ s ≤ t1 ∧
          InBox (cellLo t.resolution t.offset c) (cellHi t.resolution t.offset c) (along o u s)))) ∧
      (Oblique u → t0 < t1 → (¬ ∃ s, t0 < s ∧ s < t1 ∧ InBox t.offset t.max (along o u s)) → t' = t) ∧
      (Oblique u → t0 < t1 → (∃ s, t0 < s ∧ s < t1 ∧ InBox t.offset t.max (along o u s)) →
        (∀ c, InCell t.resolution n t.offset c (along o u t1) → S' c) ∧
        (∀ c, S' c → S c ∨ InCell t.resolution n t.offset c (along o u t1)) ∧
        (∀ c, S c → ¬ S' c → ∃ s, t0 ≤ s ∧ s ≤ t1 ∧
          InBox (cellLo t.resolution t.offset c) (cellHi t.resolution t.offset c) (along o u s)) ∧
        (∀ c x y, S c → Crosses t.resolution t.offset o u c x y → y ≤ t1 →
          (t0 = 0 ∧ 0 ≤ x) ∨ (InBox t.offset t.max o ∧ 0 ≤ t0 ∧ t0 ≤ x) →
          S' c → InCell t.resolution n t.offset c (along o u t1))) := by
  have hreach := h
  obtain ⟨k, hg⟩ := Octree.reach_good h
  have hpos := hg.pos
  have hS' := Octree.shows_unique hpos hS (Octree.good_shows hg)
  have hnk : n = 2 ^ k := by
    have : t.resolution * n = t.resolution * ((2 ^ k : ℕ) : ℝ) := by rw [hn]; push_cast; exact hg.res.symm
    exact_mod_cast mul_left_cancel₀ hpos.ne' this
  subst hnk
  cases hh : ((Box.new t.offset t.max).intersectRay (Ray.new o d) t0 t1 0).1 with
  | false =>
    refine ⟨t, S, Octree.raytrace_miss hh, h, hS, Or.inl rfl, fun _ _ _ => rfl, fun hob ht hin => ?_⟩
    have := (box_hit hg hu hob (o := o) ht).1.2 hin
    rw [hh] at this
    exact absurd this (by simp)
  | true =>
    obtain ⟨f, m, t', h1, h2, h3, h4, h5, h6, h7⟩ := Octree.raytrace_good hg hu t0 t1 hh
    obtain ⟨-, r2, r3, r4⟩ := OctNode.raytrace_spec hpos (Octree.unit_of hu) t1 f k t.root m (o - t.offset)
      (t.start (Ray.new o d) t0 t1) (Octree.root_wf hg) h1
    have hoff : t'.offset = t.offset := by rw [h3.off, hg.off]
    have hsh := Octree.good_shows h3
    rw [h4, hoff] at hsh
    have h7' : ∀ c, OctNode.Occ k t'.root c ↔ OctNode.Occ k m c ∨
        InCell t.resolution (2 ^ k) t.offset c (along o u t1) := by
      intro c; rw [h7, Octree.cell_iff hg]
    have p1 : ∀ c, InCell t.resolution (2 ^ k) t.offset c (along o u t1) → OctNode.Occ k t'.root c :=
      fun c hc => (h7' c).2 (Or.inr hc)
    have p2 : ∀ c, OctNode.Occ k t'.root c → S c ∨ InCell t.resolution (2 ^ k) t.offset c (along o u t1) := by
      intro c hc
      rcases (h7' c).1 hc with hc | hc
      · exact Or.inl ((hS' c).2 (r2 c hc))
      · exact Or.inr hc
    have p3 : ∀ c, S c → ¬ OctNode.Occ k t'.root c → ∃ s, t0 ≤ s ∧ s ≤ t1 ∧
        InBox (cellLo t.resolution t.offset c) (cellHi t.resolution t.offset c) (along o u s) := by
      intro c hc hc'
      obtain ⟨s, s1, s2, s3⟩ := r3 c ((hS' c).1 hc) fun hm => hc' ((h7' c).2 (Or.inl hm))
      refine ⟨s, (Octree.start_ge hg _ _ _).trans s1, s2, ?_⟩
      rwa [OctNode.along_sub, Octree.near_iff] at s3
    have hr' : OctReach size t' := by
      obtain ⟨q1, q2, rq, ti, ops, q3, q4, q5, q6⟩ := hreach
      refine ⟨q1, h4 ▸ q2, rq, ti, ops ++ [.raytrace (Ray.new o d) t0 t1], q3, q4, ?_, ?_⟩
      · intro op hop
        rcases List.mem_append.1 hop with hop | hop
        · exact q5 op hop
        · rw [List.mem_singleton] at hop
          subst hop
          exact ⟨o, d, u, hu, rfl⟩
      · have app : ∀ (l : List Octree.Op) (a b c : Octree) (op : Octree.Op), a.run l = .ok b → b.step op = .ok c →
            a.run (l ++ [op]) = .ok c := by
          intro l
          induction l with
          | nil =>
            intro a b c op e1 e2
            simp only [Octree.run, Except.ok.injEq] at e1
            subst e1
            simp [Octree.run, e2, bind, Except.bind]
          | cons x l ih =>
            intro a b c op e1 e2
            obtain ⟨a', e3, e4⟩ := Octree.run_cons e1
            have := ih a' b c op e4 e2
            simp [Octree.run, e3, bind, Except.bind, this]
        exact app _ _ _ _ _ q6 h2
    refine ⟨t', _, h2, hr', hsh, Or.inr ⟨p1, p2, p3⟩, ?_, ?_⟩
    · intro hob ht hin
      exact absurd ((box_hit hg hu hob (o := o) ht).1.1 hh) hin
    · intro hob ht hin
      refine ⟨p1, p2, p3, ?_⟩
      intro c x y hc hcr hy hx hc'
      have hth := (Octree.thick_iff t.resolution t.offset o u c x y).2 hcr
      obtain ⟨-, g2, g3⟩ := start_in hg hu hob ht ((hS' c).1 hc) hth hx hin
      rcases (h7' c).1 hc' with hm | hm
      · exact absurd hm (r4 c x y ((hS' c).1 hc) hth hy g2 g3)
      · exact hm

/-- C40 case: a ray from outside across the occupied cell, with its end beyond. -/
example : ∃ t S, OctReach 2 t ∧ t.resolution * (2 : ℕ) = 2 ∧ Shows t t.resolution t.offset S ∧ S (1, 1, 1) ∧
    UnitAlong ⟨1, 2, 2⟩ ⟨1 / 3, 2 / 3, 2 / 3⟩ ∧ Oblique ⟨1 / 3, 2 / 3, 2 / 3⟩ ∧
    Crosses t.resolution t.offset ⟨-1, -2, -2⟩ ⟨1 / 3, 2 / 3, 2 / 3⟩ (1, 1, 1) 3 4.5 ∧
    ∃ s, 0 < s ∧ s < 10 ∧ InBox t.offset t.max (along ⟨-1, -2, -2⟩ ⟨1 / 3, 2 / 3, 2 / 3⟩ s) := by
  obtain ⟨t0, t, -, -, h3, h4, h5, h6, h7, h8, -⟩ := tree2
  refine ⟨t, _, h5, by rw [h4]; norm_num, Octree.good_shows h3, (h8 _).2 rfl, unit122.1, unit122.2, ⟨?_, ?_⟩, 4, ?_⟩
  · rw [h4]; norm_num
  · intro s s1 s2
    rw [h4, h6]
    simp only [cellLo, cellHi, along, Nat.cast_one]
    norm_num at s2
    refine ⟨?_, ?_, ?_, ?_, ?_, ?_⟩ <;> linarith
  · rw [h6, h7]; norm_num [InBox, along]

/-- C40 fails for rays along an axis: a ray beside the tree marks a cell as occupied, and a ray that ends
inside the tree leaves it unchanged. -/
theorem C40_axis_parallel_wrong :
    (∃ t t', Octree.new 1 1 = .ok t ∧ t.getCubes = [] ∧
      t.raytrace (Ray.new ⟨9, 9, 0⟩ ⟨0, 0, 1⟩) (-1) 1 = .ok t' ∧ t'.getCubes ≠ [] ∧
      ¬ ∃ s, InBox t.offset t.max (along ⟨9, 9, 0⟩ ⟨0, 0, 1⟩ s)) ∧
    (∃ t, Octree.new 1 1 = .ok t ∧ t.getCubes = [] ∧
      t.raytrace (Ray.new ⟨0, 0, -5⟩ ⟨0, 0, 1⟩) 0 5 = .ok t ∧
      InBox t.offset t.max (along ⟨0, 0, -5⟩ ⟨0, 0, 1⟩ 5)) := by
  obtain ⟨t, h1, h2, h3, h4, h5, h6, h7, h8⟩ := tree1
  have hu : UnitAlong ⟨0, 0, 1⟩ ⟨0, 0, 1⟩ := ⟨by norm_num, 1, by norm_num⟩
  have hp : Proper (⟨-0.5, -0.5, -0.5⟩ : Vec3) ⟨0.5, 0.5, 0.5⟩ := by norm_num [Proper]
  constructor
  · have hh : ((Box.new t.offset t.max).intersectRay (Ray.new ⟨9, 9, 0⟩ ⟨0, 0, 1⟩) (-1) 1 0).1 = true := by
      rw [h6, h7, C27_axis_parallel_partial _ _ _ _ ⟨0, 0, 1⟩ (-1) 1 0 hp hu (by norm_num) (by norm_num)]
      norm_num
    obtain ⟨f, m, t', -, a2, a3, -, -, -, a4⟩ := Octree.raytrace_good h2 hu (-1) 1 hh
    refine ⟨t, t', h1, h4, a2, ?_, ?_⟩
    · obtain ⟨cells, -, c2, c3⟩ := Octree.good_shows a3
      rw [c3]
      intro hnil
      rw [List.map_eq_nil_iff] at hnil
      have := (c2 _).2 ((a4 _).2 (Or.inr rfl))
      rw [hnil] at this
      simp at this
    · rintro ⟨s, hs⟩
      have := hs.2.1
      rw [h7] at this
      norm_num [along] at this
  · refine ⟨t, h1, h4, Octree.raytrace_miss ?_, by rw [h6, h7]; norm_num [InBox, along]⟩
    rw [h6, h7, ← Bool.not_eq_true, C27_axis_parallel_partial _ _ _ _ ⟨0, 0, 1⟩ 0 5 0 hp hu (by norm_num)
      (by norm_num)]
    norm_num

/-- C40: if the ray ends beyond the tree, an outermost cell is marked although the end point is not in it: here
the end point is at (7/3, 14/3, 14/3), the tree is the unit cube around the origin. -/
theorem C40_end_outside_wrong : ∃ t t', Octree.new 1 1 = .ok t ∧ t.getCubes = [] ∧
    t.raytrace (Ray.new ⟨-1, -2, -2⟩ ⟨1, 2, 2⟩) 0 10 = .ok t' ∧ t'.getCubes ≠ [] ∧
    ¬ InBox t.offset t.max (along ⟨-1, -2, -2⟩ ⟨1 / 3, 2 / 3, 2 / 3⟩ 10) := by
  obtain ⟨t, h1, h2, h3, h4, h5, h6, h7, h8⟩ := tree1
  have hh := (box_hit h2 unit122.1 unit122.2 (o := ⟨-1, -2, -2⟩) (t0 := 0) (t1 := 10) (by norm_num)).1.2
    ⟨3, by norm_num, by norm_num, by rw [h6, h7]; norm_num [InBox, along]⟩
  obtain ⟨f, m, t', -, a2, a3, -, -, -, a4⟩ := Octree.raytrace_good h2 unit122.1 0 10 hh
  refine ⟨t, t', h1, h4, a2, ?_, by rw [h6, h7]; norm_num [InBox, along]⟩
  obtain ⟨cells, -, c2, c3⟩ := Octree.good_shows a3
  rw [c3]
  intro hnil
  rw [List.map_eq_nil_iff] at hnil
  have := (c2 _).2 ((a4 _).2 (Or.inr rfl))
  rw [hnil] at this
  simp at this

/-! ## C41 -/

/-- C41, partial: full statement: after any history, the mesh consists of the faces of the reported cubes, the
bounding box encloses them, and `empty()` tells if there are none. Proved: the mesh, up to merging of
vertices (less than 2 mm, `C13_cell_size`), for trees below 4000 km with at most 2^29 cubes. Missing: the
bounding box and `empty()`, see below. -/
theorem C41_mesh_partial (size : ℝ) (t : Octree) (h : OctReach size t) (hsize : size < 4000000)
    (hcount : t.getCubes.length ≤ 2 ^ 29) :
    ∃ t' m l, t.getMesh = .ok (t', m) ∧ t'.getCubes = t.getCubes ∧ soup m.points m.tris = some l ∧
      (∀ p ∈ m.points, ∃ b ∈ t.getCubes, p ∈ corners8 b.lo b.hi) ∧
      List.Forall₂ (fun c c' => SameCell3 c.1 c'.1 ∧ SameCell3 c.2.1 c'.2.1 ∧ SameCell3 c.2.2 c'.2.2)
        (t.getCubes.flatMap fun b => trianglesOf b.mesh) l := by
  obtain ⟨k, hg, hm⟩ := Octree.reach_mesh h
  have hin := cubes_in hg
  obtain ⟨f1, f2⟩ := Octree.fold_soup t.getCubes (Octree.good_boxes hg) Mesh.new [] rfl (by
    simp only [Mesh.new, Mesh.invalidateCache, List.length_nil]; omega)
  change (Octree.fresh t.getCubes).points = _ at f1
  change soup (Octree.fresh t.getCubes).points (Octree.fresh t.getCubes).tris = _ at f2
  have f1' : (Octree.fresh t.getCubes).points = t.getCubes.flatMap fun b => corners8 b.lo b.hi := by
    rw [f1]; rfl
  have hrange : ∀ p ∈ (Octree.fresh t.getCubes).points, InIntRange p := by
    intro p hp
    rw [f1'] at hp
    obtain ⟨b, hb, hp⟩ := List.mem_flatMap.1 hp
    obtain ⟨⟨a1, a2, a3, a4, a5, a6⟩, b1, b2, b3, b4, b5, b6⟩ := hin b hb
    have hs := hg.size_pos
    have key : ∀ x : ℝ, -size / 2 ≤ x → x ≤ size / 2 → |1000 * x| < 2 ^ 31 := by
      intro x h1 h2
      rw [abs_lt]
      constructor <;> norm_num <;> linarith
    simp only [corners8, List.mem_cons, List.not_mem_nil, or_false] at hp
    rcases hp with rfl | rfl | rfl | rfl | rfl | rfl | rfl | rfl <;>
      exact ⟨key _ (by assumption) (by assumption), key _ (by assumption) (by assumption),
        key _ (by assumption) (by assumption)⟩
  have hlen : (Octree.fresh t.getCubes).points.length ≤ 2 ^ 32 := by
    rw [f1']
    have : ∀ l : List Box, (l.flatMap fun b => corners8 b.lo b.hi).length = 8 * l.length := by
      intro l
      induction l with
      | nil => rfl
      | cons a l ih => rw [List.flatMap_cons, List.length_append, ih, List.length_cons]; simp [corners8]; omega
    rw [this]; omega
  obtain ⟨m', m'', g1, -, -, -, -, g2, -, l, l', g3, g4, g5⟩ :=
    C13_merge (Octree.fresh t.getCubes) (Mesh.valid_of_soup f2) hrange hlen
  obtain ⟨t', e1⟩ := Octree.getMesh_ok hg hm g1
  have e2 := Octree.getMesh_good hg e1
  rw [f2, List.nil_append, Option.some.injEq] at g3
  subst g3
  refine ⟨t', m', l', e1, ?_, g4, ?_, g5⟩
  · unfold Octree.getCubes; rw [e2.2.1, e2.2.2.1]
  · intro p hp
    have := g2.subset hp
    rw [f1'] at this
    obtain ⟨b, hb, hp⟩ := List.mem_flatMap.1 this
    exact ⟨b, hb, hp⟩

/-- C41, partial (full statement at `C41_mesh_partial`): the bounding box encloses all cubes up to 2 mm if it
was not asked for before. -/
theorem C41_bounding_box_partial (size request : ℝ) (t0 t : Octree) (ops : List Octree.Op) (hr : 0 < request)
    (h0 : Octree.new size request = .ok t0) (hs : 0 < size) (htol : 1e-10 ≤ t0.resolution)
    (hok : ∀ o ∈ ops, OctOpOk o) (hnb : Octree.Op.getBoundingBox ∉ ops) (hrun : t0.run ops = .ok t)
    (hsize : size < 4000000) (hcount : t.getCubes.length ≤ 2 ^ 29) :
    ∃ t' b, t.getBoundingBox = .ok (t', b) ∧ ∀ e ∈ t.getCubes,
      b.lo.x - 0.002 < e.lo.x ∧ b.lo.y - 0.002 < e.lo.y ∧ b.lo.z - 0.002 < e.lo.z ∧
      e.hi.x < b.hi.x + 0.002 ∧ e.hi.y < b.hi.y + 0.002 ∧ e.hi.z < b.hi.z + 0.002 := by
  obtain ⟨k, hg0, -, -, hbb⟩ := Octree.good_new hr h0 htol
  have hg := Octree.run_good hg0 hok hrun
  have hbase := run_bb hnb hok hg0 hrun
  rw [← hbase] at hbb
  have hreach : OctReach size t := ⟨hs, by rw [Octree.run_res hrun]; exact htol, request, t0, ops, hr, h0, hok, hrun⟩
  obtain ⟨t', m, l, a1, a2, a3, -, a4⟩ := C41_mesh_partial size t hreach hsize hcount
  have hsp := (boundsOf_spec m.points ⟨1e9, 1e9, 1e9⟩ ⟨-1e9, -1e9, -1e9⟩).2.1
  set bd := Shape.boundsOf m.points ⟨1e9, 1e9, 1e9⟩ ⟨-1e9, -1e9, -1e9⟩ with hbd
  refine ⟨{ t' with base := { t'.base with bbMin := bd.1, bbMax := bd.2, bbValid := true } }, Box.new bd.1 bd.2, ?_, ?_⟩
  · unfold Octree.getBoundingBox
    simp only [hbb, Bool.false_eq_true, if_false, a1, bind, Except.bind, pure, Except.pure]
    rfl
  · rw [Box.new_lo, Box.new_hi]
    have near : ∀ p, (∃ e ∈ t.getCubes, p ∈ corners8 e.lo e.hi) → ∃ q ∈ m.points, SameCell3 p q := by
      rintro p ⟨e, he, hp⟩
      obtain ⟨lo, hi, rfl⟩ := Octree.good_boxes hg e he
      rw [Box.new_lo, Box.new_hi] at hp
      rw [← box_trianglesOf] at hp
      obtain ⟨tr, htr, hp⟩ := List.mem_flatMap.1 hp
      have hmem : tr ∈ t.getCubes.flatMap fun b => trianglesOf b.mesh := List.mem_flatMap.2 ⟨_, he, htr⟩
      obtain ⟨tr', h1, h2⟩ := forall₂_mem a4 hmem
      have h3 := soup_mem a3 h1
      simp only [List.mem_cons, List.not_mem_nil, or_false] at hp
      rcases hp with rfl | rfl | rfl
      · exact ⟨_, h3.1, h2.1⟩
      · exact ⟨_, h3.2.1, h2.2.1⟩
      · exact ⟨_, h3.2.2, h2.2.2⟩
    intro e he
    obtain ⟨q, q1, q2⟩ := near ⟨e.lo.x, e.lo.y, e.lo.z⟩ ⟨e, he, by simp [corners8]⟩
    obtain ⟨r, r1, r2⟩ := near ⟨e.hi.x, e.hi.y, e.hi.z⟩ ⟨e, he, by simp [corners8]⟩
    obtain ⟨c1, c2, c3, -⟩ := C13_cell_size _ _ q2
    obtain ⟨d1, d2, d3, -⟩ := C13_cell_size _ _ r2
    obtain ⟨i1, i2, i3, i4, i5, i6⟩ := hsp q q1
    obtain ⟨j1, j2, j3, j4, j5, j6⟩ := hsp r r1
    rw [abs_lt] at c1 c2 c3 d1 d2 d3
    norm_num at c1 c2 c3 d1 d2 d3 ⊢
    refine ⟨?_, ?_, ?_, ?_, ?_, ?_⟩ <;> linarith

/-- C41 case. -/
example : ∃ t0 t, Octree.new 2 1 = .ok t0 ∧ t0.run [.add ⟨0.5, 0.5, 0.5⟩] = .ok t ∧ OctReach 2 t ∧
    t.getCubes.length = 1 := by
  obtain ⟨t0, t, h1, h2, h3, h4, h5, h6, h7, h8, h9⟩ := tree2
  exact ⟨t0, t, h1, h2, h5, by rw [h9]; rfl⟩

/-- C41 fails: `empty()` looks at the mesh of the base class, which an octree never fills. -/
theorem C41_empty_wrong : ∃ t0 t, Octree.new 1 1 = .ok t0 ∧ t0.run [.add ⟨0, 0, 0⟩] = .ok t ∧
    t.getCubes ≠ [] ∧ t.empty = true := by
  obtain ⟨t0, t, h1, h2, h3, h4, -, -, h5, h6⟩ := single (size := 1) (r := 1) 0 (by norm_num) (by norm_num)
    (by simp) (by norm_num) ⟨0, 0, 0⟩
  refine ⟨t0, t, h1, h2, ?_, by unfold Octree.empty; rw [h5]; rfl⟩
  obtain ⟨cells, -, c2, c3⟩ := Octree.good_shows h3
  rw [c3]
  intro hnil
  rw [List.map_eq_nil_iff] at hnil
  have := (c2 _).2 ((h6 _).2 rfl)
  rw [hnil] at this
  simp at this

/-- C41 fails: the bounding box is computed once and not again: asked for on an empty tree it is inside
out, and it stays so after a point is added. -/
theorem C41_bounding_box_wrong : ∃ t0 t t' b, Octree.new 1 1 = .ok t0 ∧
    t0.run [.getBoundingBox, .add ⟨0, 0, 0⟩] = .ok t ∧ t.getCubes ≠ [] ∧ t.getBoundingBox = .ok (t', b) ∧
    b.lo = ⟨1e9, 1e9, 1e9⟩ ∧ b.hi = ⟨-1e9, -1e9, -1e9⟩ := by
  have h := Octree.new_eq (size := 1) (r := 1) 0 (by norm_num) (by simp)
  set t0 : Octree := ⟨1 / 2 ^ 0, ⟨-1 / 2, -1 / 2, -1 / 2⟩, ⟨1 / 2, 1 / 2, 1 / 2⟩, 1, OctNode.new 1, Mesh.new,
    Shape.new⟩ with ht0
  set t1 : Octree := { t0 with base := { Shape.new with bbMin := ⟨1e9, 1e9, 1e9⟩, bbMax := ⟨-1e9, -1e9, -1e9⟩, bbValid := true } }
    with ht1
  have hcub : t0.getCubes = [] := by
    simp [ht0, Octree.getCubes, OctNode.new, OctNode.getCubes, OctNode.octants]
  have hmesh : t0.getMesh = .ok (t0, Mesh.new) := by
    unfold Octree.getMesh
    rw [hcub]
    have : t0.mesh = Mesh.new := rfl
    rw [this, if_pos (show Mesh.new.empty = true from rfl), List.foldl_nil, Octree.filter_new]
    rfl
  have hstep : t0.step .getBoundingBox = .ok t1 := by
    unfold Octree.step Octree.getBoundingBox
    have : t0.base.bbValid = false := rfl
    simp only [this, Bool.false_eq_true, if_false, hmesh, bind, Except.bind, pure, Except.pure]
    rfl
  have hg : Octree.Good 0 1 t1 :=
    ⟨rfl, by norm_num [ht1, ht0], by norm_num [ht1, ht0], rfl, rfl, by simp [ht1, ht0, OctNode.new], OctNode.WF.new _ _⟩
  obtain ⟨t, a1, a2, a3, a4, a5, a6⟩ := Octree.add_good hg ⟨0, 0, 0⟩
  refine ⟨t0, t, t, Box.new ⟨1e9, 1e9, 1e9⟩ ⟨-1e9, -1e9, -1e9⟩, h, ?_, ?_, ?_, Box.new_lo _ _, Box.new_hi _ _⟩
  · simp only [Octree.run, hstep, bind, Except.bind]
    simp only [Octree.step, a1]
  · obtain ⟨cells, -, c2, c3⟩ := Octree.good_shows a2
    rw [c3]
    intro hnil
    rw [List.map_eq_nil_iff] at hnil
    have := (c2 _).2 ((a6 _).2 (Or.inr rfl))
    rw [hnil] at this
    simp at this
  · unfold Octree.getBoundingBox
    rw [a5]
    rfl

end Geo
