import Verif.Model.RoundedOctreeQueries
import Verif.Lemmas.RoundedOctree

/-!
# Helper lemmas about queries of octrees in floating point arithmetic
-/

namespace Geo

open Spec

/-! ## Without rounding -/

theorem nodeContains_id (t : OctNode) (p : Vec3) : Rounded.nodeContains id t p = t.contains p := by
  induction t with
  | null => rfl
  | node s o ch ih =>
    unfold Rounded.nodeContains OctNode.contains
    simp only [id, ih]

theorem nodeBox_id (t : OctNode) : ∀ lo hi, Rounded.nodeBox id t lo hi = t.intersectBox lo hi := by
  induction t with
  | null => intro lo hi; rfl
  | node s o ch ih =>
    intro lo hi
    unfold Rounded.nodeBox OctNode.intersectBox
    simp only [ih, id]
    rfl

/-! ## Points -/

theorem nodeContains_eq : ∀ (k : ℕ) (size : ℝ) (t : OctNode) (p : Vec3), toDouble size = size → OctNode.WF k size t →
    Rounded.nodeContains toDouble t p = t.contains p := by
  intro k
  induction k with
  | zero =>
    intro size t p hs hw
    cases t with
    | null => rfl
    | node s o ch =>
      obtain ⟨rfl, hch⟩ := hw
      unfold Rounded.nodeContains OctNode.contains
      simp only [hch]
      rfl
  | succ k ih =>
    intro size t p hs hw
    cases t with
    | null => rfl
    | node s o ch =>
      obtain ⟨rfl, -, hch⟩ := hw
      unfold Rounded.nodeContains OctNode.contains
      rw [toDouble_half hs]
      simp only [ih (s / 2) _ p (toDouble_half hs) (hch _)]

/-! ## Boxes -/

/-- The lower end of an interval in a cell and its rounded counterpart: equal places of the cell, or both before it.
(Device of the proofs.) -/
def LowRel (size x x' : ℝ) : Prop := (x' = x ∧ 0 ≤ x ∧ x ≤ size ∧ toDouble x = x) ∨ (x ≤ 0 ∧ x' ≤ 0)

/-- The same for the upper end: equal places of the cell, or both at or behind its end. (Device of the proofs.) -/
def HighRel (size x x' : ℝ) : Prop := (x' = x ∧ 0 ≤ x ∧ x ≤ size ∧ toDouble x = x) ∨ (size ≤ x ∧ size ≤ x')

/-- One axis: the comparisons agree, and the relation goes on in the children that are visited. -/
theorem axis_step {size lo lo' hi hi' : ℝ} (hs : toDouble size = size) (hpos : 0 < size) (h1 : LowRel size lo lo')
    (h2 : HighRel size hi hi') :
    decide (lo' > size / 2) = decide (lo > size / 2) ∧ decide (hi' > size / 2) = decide (hi > size / 2) ∧
    ∀ b : Bool, decide (lo > size / 2) ≤ b → b ≤ decide (hi > size / 2) →
      LowRel (size / 2) (lo - if b then size / 2 else 0) (toDouble (lo' - if b then size / 2 else 0)) ∧
      HighRel (size / 2) (hi - if b then size / 2 else 0) (toDouble (hi' - if b then size / 2 else 0)) := by
  have hh := toDouble_half hs
  refine ⟨?_, ?_, ?_⟩
  · rcases h1 with ⟨rfl, -⟩ | ⟨a, b⟩
    · rfl
    · rw [decide_eq_decide]; constructor <;> intro <;> linarith
  · rcases h2 with ⟨rfl, -⟩ | ⟨a, b⟩
    · rfl
    · rw [decide_eq_decide]; constructor <;> intro <;> linarith
  · intro b g1 g2
    constructor
    · cases b with
      | false =>
        simp only [Bool.false_eq_true, if_false, sub_zero]
        have hle : ¬ lo > size / 2 := by
          intro h
          rw [decide_eq_true h] at g1
          exact absurd g1 (by decide)
        rcases h1 with ⟨rfl, a, b, c⟩ | ⟨a, b⟩
        · exact .inl ⟨c, a, not_lt.1 hle, c⟩
        · right
          refine ⟨a, ?_⟩
          have := toDouble_mono b
          rwa [toDouble_zero] at this
      | true =>
        simp only [if_true]
        by_cases hl : lo > size / 2
        · rcases h1 with ⟨rfl, a, b, c⟩ | ⟨a, b⟩
          · have := toDouble_sub c hh hl.le (by linarith)
            exact .inl ⟨this, by linarith, by linarith, this⟩
          · linarith
        · right
          refine ⟨by linarith, ?_⟩
          have hl' : lo' - size / 2 ≤ 0 := by
            rcases h1 with ⟨rfl, -⟩ | ⟨a, b⟩ <;> linarith
          have := toDouble_mono hl'
          rwa [toDouble_zero] at this
    · cases b with
      | false =>
        simp only [Bool.false_eq_true, if_false, sub_zero]
        by_cases hl : hi > size / 2
        · right
          refine ⟨hl.le, ?_⟩
          have hl' : size / 2 ≤ hi' := by
            rcases h2 with ⟨rfl, -⟩ | ⟨a, b⟩ <;> linarith
          have := toDouble_mono hl'
          rwa [hh] at this
        · rcases h2 with ⟨rfl, a, b, c⟩ | ⟨a, b⟩
          · exact .inl ⟨c, a, not_lt.1 hl, c⟩
          · linarith
      | true =>
        simp only [if_true]
        have hl : hi > size / 2 := by
          by_contra h
          rw [decide_eq_false h] at g2
          exact absurd g2 (by decide)
        rcases h2 with ⟨rfl, a, b, c⟩ | ⟨a, b⟩
        · have := toDouble_sub c hh hl.le (by linarith)
          exact .inl ⟨this, by linarith, by linarith, this⟩
        · right
          refine ⟨by linarith, ?_⟩
          have := toDouble_mono (show size / 2 ≤ hi' - size / 2 by linarith)
          rwa [hh] at this

theorem nodeBox_eq : ∀ (k : ℕ) (size : ℝ) (t : OctNode) (lo hi lo' hi' : Vec3), toDouble size = size → 0 < size → OctNode.WF k size t →
    LowRel size lo.x lo'.x ∧ LowRel size lo.y lo'.y ∧ LowRel size lo.z lo'.z →
    HighRel size hi.x hi'.x ∧ HighRel size hi.y hi'.y ∧ HighRel size hi.z hi'.z →
    Rounded.nodeBox toDouble t lo' hi' = t.intersectBox lo hi := by
  intro k
  induction k with
  | zero =>
    intro size t lo hi lo' hi' hs hpos hw h1 h2
    cases t with
    | null => rfl
    | node s o ch =>
      obtain ⟨rfl, hch⟩ := hw
      unfold Rounded.nodeBox OctNode.intersectBox
      simp only [hch]
      simp only [Rounded.nodeBox, OctNode.intersectBox, Bool.and_false]
  | succ k ih =>
    intro size t lo hi lo' hi' hs hpos hw h1 h2
    cases t with
    | null => rfl
    | node s o ch =>
      obtain ⟨rfl, -, hch⟩ := hw
      obtain ⟨x1, x2, x3⟩ := axis_step hs hpos h1.1 h2.1
      obtain ⟨y1, y2, y3⟩ := axis_step hs hpos h1.2.1 h2.2.1
      obtain ⟨z1, z2, z3⟩ := axis_step hs hpos h1.2.2 h2.2.2
      unfold Rounded.nodeBox OctNode.intersectBox
      rw [toDouble_half hs, x1, x2, y1, y2, z1, z2]
      congr 2
      funext w
      by_cases c1 : decide (lo.x > s / 2) ≤ w.1 ∧ w.1 ≤ decide (hi.x > s / 2)
      swap
      · rw [decide_eq_false c1]; simp
      by_cases c2 : decide (lo.y > s / 2) ≤ w.2.1 ∧ w.2.1 ≤ decide (hi.y > s / 2)
      swap
      · rw [decide_eq_false c2]; simp
      by_cases c3 : decide (lo.z > s / 2) ≤ w.2.2 ∧ w.2.2 ≤ decide (hi.z > s / 2)
      swap
      · rw [decide_eq_false c3]; simp
      congr 1
      have hx := x3 w.1 c1.1 c1.2
      have hy := y3 w.2.1 c2.1 c2.2
      have hz := z3 w.2.2 c3.1 c3.2
      refine ih (s / 2) _ _ _ _ _ (toDouble_half hs) (by linarith) (hch _) ?_ ?_
      · simp only [Vec3.sub_x, Vec3.sub_y, Vec3.sub_z, Rounded.sub, Rounded.octShift, OctNode.shift, toDouble_half hs]
        exact ⟨hx.1, hy.1, hz.1⟩
      · simp only [Vec3.sub_x, Vec3.sub_y, Vec3.sub_z, Rounded.sub, Rounded.octShift, OctNode.shift, toDouble_half hs]
        exact ⟨hx.2, hy.2, hz.2⟩

namespace Octree

/-- A coordinate of the tree after subtracting the offset in floating point arithmetic. (Device of the proofs.) -/
noncomputable def snap (size x : ℝ) : ℝ := -size / 2 + toDouble (x - -size / 2)

/-- The same for points. (Device of the proofs.) -/
noncomputable def snap3 (size : ℝ) (p : Vec3) : Vec3 := ⟨snap size p.x, snap size p.y, snap size p.z⟩

theorem snap_mono (size : ℝ) {x y : ℝ} (h : x ≤ y) : snap size x ≤ snap size y := by
  unfold snap
  have := toDouble_mono (show x - -size / 2 ≤ y - -size / 2 by linarith)
  linarith

theorem snap_near {size : ℝ} (hs : toDouble size = size) {x : ℝ} (h1 : -size / 2 ≤ x) (h2 : x ≤ size / 2) :
    (-size / 2 ≤ snap size x ∧ snap size x ≤ size / 2) ∧ |snap size x - x| ≤ size / 2 ^ 53 := by
  unfold snap
  have h := toDouble_range toDouble_zero hs (show 0 ≤ x - -size / 2 by linarith) (show x - -size / 2 ≤ size by linarith)
  refine ⟨⟨by linarith [h.1], by linarith [h.2]⟩, ?_⟩
  have := toDouble_near (x - -size / 2)
  rw [abs_of_nonneg (show (0 : ℝ) ≤ x - -size / 2 by linarith)] at this
  have e : -size / 2 + toDouble (x - -size / 2) - x = toDouble (x - -size / 2) - (x - -size / 2) := by ring
  rw [e]
  exact this.trans (div_le_div_of_nonneg_right (by linarith) (by norm_num))

theorem snap_low (size : ℝ) : snap size (-size / 2) = -size / 2 := by
  unfold snap
  rw [sub_self, toDouble_zero, add_zero]

theorem snap_high {size : ℝ} (hs : toDouble size = size) : snap size (size / 2) = size / 2 := by
  unfold snap
  rw [show size / 2 - -size / 2 = size by ring, hs]
  ring

theorem snap_inner {size : ℝ} (hs : toDouble size = size) {x : ℝ} (h1 : -size / 2 ≤ x) (h2 : x ≤ size / 2) :
    0 ≤ toDouble (x - -size / 2) ∧ toDouble (x - -size / 2) ≤ size ∧ toDouble (toDouble (x - -size / 2)) = toDouble (x - -size / 2) := by
  have h := toDouble_range toDouble_zero hs (show 0 ≤ x - -size / 2 by linarith) (show x - -size / 2 ≤ size by linarith)
  exact ⟨h.1, h.2, toDouble_idem _⟩

/-- Adding a point in floating point arithmetic. -/
theorem octAdd_snap {k : ℕ} {size : ℝ} {t : Octree} (h : Good k size t) (hs : toDouble size = size) (hr : t.resolution ≤ 2 ^ 19) {p : Vec3}
    (hp : InBox ⟨-size / 2, -size / 2, -size / 2⟩ ⟨size / 2, size / 2, size / 2⟩ p) :
    Rounded.octAdd toDouble t p = t.add (snap3 size p) := by
  obtain ⟨p1, p2, p3, p4, p5, p6⟩ := hp
  have hin : Inner size (Rounded.sub toDouble p t.offset) := by
    rw [h.off]
    exact ⟨snap_inner hs p1 p2, snap_inner hs p3 p4, snap_inner hs p5 p6⟩
  unfold Rounded.octAdd Octree.add
  have e : snap3 size p - t.offset = Rounded.sub toDouble p t.offset := by
    rw [h.off]
    ext <;> simp [Rounded.sub, snap3, snap]
  rw [e]
  simp only [nodeAdd_eq h.tol hr (good_res h hs) k size _ t.root _ h.res hs h.wf hin]

/-- Asking for a point in floating point arithmetic. -/
theorem octContains_snap {k : ℕ} {size : ℝ} {t : Octree} (h : Good k size t) (hs : toDouble size = size) {p : Vec3}
    (hp : InBox ⟨-size / 2, -size / 2, -size / 2⟩ ⟨size / 2, size / 2, size / 2⟩ p) :
    Rounded.octContains toDouble t p = t.contains (snap3 size p) := by
  obtain ⟨p1, p2, p3, p4, p5, p6⟩ := hp
  have n1 := (snap_near hs p1 p2).1
  have n2 := (snap_near hs p3 p4).1
  have n3 := (snap_near hs p5 p6).1
  have e : snap3 size p - t.offset = Rounded.sub toDouble p t.offset := by
    rw [h.off]
    ext <;> simp [Rounded.sub, snap3, snap]
  unfold Rounded.octContains Octree.contains
  rw [if_neg, if_neg, e, nodeContains_eq k size _ _ hs h.wf]
  · rw [h.off, h.max]
    simp only [snap3]
    push Not
    exact ⟨n1.1, n2.1, n3.1, n1.2, n2.2, n3.2⟩
  · rw [h.off, h.max]
    push Not
    exact ⟨p1, p3, p5, p2, p4, p6⟩

/-- Asking for a box that is not beyond the tree, in floating point arithmetic. -/
theorem octBox_snap {k : ℕ} {size : ℝ} {t : Octree} (h : Good k size t) (hs : toDouble size = size) {b : Box}
    (h1 : -size / 2 ≤ b.hi.x ∧ -size / 2 ≤ b.hi.y ∧ -size / 2 ≤ b.hi.z) (h2 : b.lo.x ≤ size / 2 ∧ b.lo.y ≤ size / 2 ∧ b.lo.z ≤ size / 2) :
    Rounded.octBox toDouble t b = t.intersectBox (Box.new
      (snap3 size ⟨Max.max b.lo.x (-size / 2), Max.max b.lo.y (-size / 2), Max.max b.lo.z (-size / 2)⟩)
      (snap3 size ⟨min b.hi.x (size / 2), min b.hi.y (size / 2), min b.hi.z (size / 2)⟩)) := by
  have hpos := h.size_pos
  have lo : ∀ x : ℝ, x ≤ size / 2 → -size / 2 ≤ Max.max x (-size / 2) ∧ Max.max x (-size / 2) ≤ size / 2 := fun x hx =>
    ⟨le_max_right _ _, max_le hx (by linarith)⟩
  have hi : ∀ x : ℝ, -size / 2 ≤ x → -size / 2 ≤ min x (size / 2) ∧ min x (size / 2) ≤ size / 2 := fun x hx =>
    ⟨le_min hx (by linarith), min_le_right _ _⟩
  have sl : ∀ x : ℝ, x ≤ size / 2 → (-size / 2 ≤ snap size (Max.max x (-size / 2)) ∧ snap size (Max.max x (-size / 2)) ≤ size / 2) :=
    fun x hx => (snap_near hs (lo x hx).1 (lo x hx).2).1
  have sh : ∀ x : ℝ, -size / 2 ≤ x → (-size / 2 ≤ snap size (min x (size / 2)) ∧ snap size (min x (size / 2)) ≤ size / 2) :=
    fun x hx => (snap_near hs (hi x hx).1 (hi x hx).2).1
  have rl : ∀ x : ℝ, x ≤ size / 2 → LowRel size (toDouble (Max.max x (-size / 2) - -size / 2)) (toDouble (Max.max x (-size / 2) - -size / 2)) :=
    fun x hx => .inl ⟨rfl, snap_inner hs (lo x hx).1 (lo x hx).2⟩
  have rh : ∀ x : ℝ, -size / 2 ≤ x → HighRel size (toDouble (min x (size / 2) - -size / 2)) (toDouble (min x (size / 2) - -size / 2)) :=
    fun x hx => .inl ⟨rfl, snap_inner hs (hi x hx).1 (hi x hx).2⟩
  unfold Rounded.octBox Octree.intersectBox
  rw [if_neg, if_neg]
  · rw [h.off, h.max, Box.new_lo, Box.new_hi]
    have e1 : ((⟨Max.max (snap3 size ⟨Max.max b.lo.x (-size / 2), Max.max b.lo.y (-size / 2), Max.max b.lo.z (-size / 2)⟩).x (-size / 2),
        Max.max (snap3 size ⟨Max.max b.lo.x (-size / 2), Max.max b.lo.y (-size / 2), Max.max b.lo.z (-size / 2)⟩).y (-size / 2),
        Max.max (snap3 size ⟨Max.max b.lo.x (-size / 2), Max.max b.lo.y (-size / 2), Max.max b.lo.z (-size / 2)⟩).z (-size / 2)⟩ : Vec3) -
          ⟨-size / 2, -size / 2, -size / 2⟩) = Rounded.sub toDouble ⟨Max.max b.lo.x (-size / 2), Max.max b.lo.y (-size / 2),
          Max.max b.lo.z (-size / 2)⟩ ⟨-size / 2, -size / 2, -size / 2⟩ := by
      simp only [snap3, max_eq_left (sl _ h2.1).1, max_eq_left (sl _ h2.2.1).1, max_eq_left (sl _ h2.2.2).1]
      ext <;> simp [Rounded.sub, snap]
    have e2 : ((⟨min (snap3 size ⟨min b.hi.x (size / 2), min b.hi.y (size / 2), min b.hi.z (size / 2)⟩).x (size / 2),
        min (snap3 size ⟨min b.hi.x (size / 2), min b.hi.y (size / 2), min b.hi.z (size / 2)⟩).y (size / 2),
        min (snap3 size ⟨min b.hi.x (size / 2), min b.hi.y (size / 2), min b.hi.z (size / 2)⟩).z (size / 2)⟩ : Vec3) -
          ⟨-size / 2, -size / 2, -size / 2⟩) = Rounded.sub toDouble ⟨min b.hi.x (size / 2), min b.hi.y (size / 2),
          min b.hi.z (size / 2)⟩ ⟨-size / 2, -size / 2, -size / 2⟩ := by
      simp only [snap3, min_eq_left (sh _ h1.1).2, min_eq_left (sh _ h1.2.1).2, min_eq_left (sh _ h1.2.2).2]
      ext <;> simp [Rounded.sub, snap]
    rw [e1, e2]
    exact nodeBox_eq k size _ _ _ _ _ hs hpos h.wf ⟨rl _ h2.1, rl _ h2.2.1, rl _ h2.2.2⟩ ⟨rh _ h1.1, rh _ h1.2.1, rh _ h1.2.2⟩
  · rw [h.off, h.max, Box.new_lo, Box.new_hi]
    simp only [snap3]
    push Not
    exact ⟨(sh _ h1.1).1, (sh _ h1.2.1).1, (sh _ h1.2.2).1, (sl _ h2.1).2, (sl _ h2.2.1).2, (sl _ h2.2.2).2⟩
  · rw [h.off, h.max]
    push Not
    exact ⟨h1.1, h1.2.1, h1.2.2, h2.1, h2.2.1, h2.2.2⟩

/-- Histories: the points are moved by `snap3`. -/
theorem octRun_snap {k : ℕ} {size : ℝ} (hs : toDouble size = size) : ∀ (ops : List (Option Vec3)) (t0 : Octree), Good k size t0 →
    t0.resolution ≤ 2 ^ 19 →
    (∀ p, some p ∈ ops → InBox ⟨-size / 2, -size / 2, -size / 2⟩ ⟨size / 2, size / 2, size / 2⟩ p) →
    t0.mesh.tris = [] → t0.mesh.points = [] →
    ∃ t, Rounded.octRun toDouble ops t0 = .ok t ∧ t0.run (asOps (ops.map (Option.map (snap3 size)))) = .ok t ∧ Good k size t ∧
      t.mesh.tris = [] ∧ t.mesh.points = []
  | [], t0, hg, _, _, m1, m2 => ⟨t0, rfl, rfl, hg, m1, m2⟩
  | o :: ops, t0, hg, hr, hp, m1, m2 => by
    have hp' : ∀ p, some p ∈ ops → InBox ⟨-size / 2, -size / 2, -size / 2⟩ ⟨size / 2, size / 2, size / 2⟩ p :=
      fun p h => hp p (by simp [h])
    cases o with
    | none =>
      obtain ⟨t, e1, e2, e3, e4⟩ := octRun_snap hs ops t0.clear (clear_good hg).1 hr hp' rfl rfl
      exact ⟨t, e1, e2, e3, e4⟩
    | some p =>
      have a1 := octAdd_snap hg hs hr (hp p (by simp))
      obtain ⟨t1, b1, b2, b3, -⟩ := add_good hg (snap3 size p)
      have hm : t1.mesh.tris = [] ∧ t1.mesh.points = [] := by
        unfold Octree.add at b1
        rw [Exec.bind_ok] at b1
        obtain ⟨root, -, h⟩ := b1
        simp only [pure, Except.pure, Except.ok.injEq] at h
        rw [← h]
        exact ⟨rfl, rfl⟩
      obtain ⟨t, e1, e2, e3, e4⟩ := octRun_snap hs ops t1 b2 (by rw [b3]; exact hr) hp' hm.1 hm.2
      refine ⟨t, ?_, ?_, e3, e4⟩
      · simp only [Rounded.octRun, a1, b1, bind, Except.bind]
        exact e1
      · simp only [asOps, List.map_cons, Option.map_some, Octree.run, Octree.step, b1, bind, Except.bind]
        exact e2

theorem kept_map (f : Vec3 → Vec3) : ∀ (ops : List (Option Vec3)) (ps : List Vec3),
    kept (ops.map (Option.map f)) (ps.map f) = (kept ops ps).map f
  | [], _ => rfl
  | none :: ops, ps => by
    have := kept_map f ops []
    simpa [kept] using this
  | some p :: ops, ps => by
    have := kept_map f ops (ps ++ [p])
    simpa [kept] using this

end Octree

/-- The cubes listed in floating point arithmetic are made by the constructor of boxes. -/
theorem nodeCubes_new (rnd : ℝ → ℝ) (t : OctNode) : ∀ o, ∀ b ∈ Rounded.nodeCubes rnd t o, ∃ lo hi, b = Box.new lo hi := by
  induction t with
  | null => intro o b hb; simp [Rounded.nodeCubes] at hb
  | node s oc ch ih =>
    intro o b hb
    unfold Rounded.nodeCubes at hb
    split_ifs at hb
    · rw [List.mem_singleton] at hb
      exact ⟨_, _, hb⟩
    · obtain ⟨w, -, hw⟩ := List.mem_flatMap.1 hb
      exact ih _ _ b hw

end Geo
