import Verif.Lemmas.OctreeRay

/-!
# Helper lemmas for whole octrees
-/

namespace Geo

open Spec

namespace Octree

open OctNode

/-- Invariant of octrees with `2^k` cells per axis. -/
structure Good (k : ℕ) (size : ℝ) (t : Octree) : Prop where
  size_eq : t.size = size
  res : t.resolution * 2 ^ k = size
  tol : 1e-10 ≤ t.resolution
  off : t.offset = ⟨-size / 2, -size / 2, -size / 2⟩
  max : t.max = ⟨size / 2, size / 2, size / 2⟩
  root : t.root ≠ .null
  wf : WF k size t.root

theorem Good.pos {k : ℕ} {size : ℝ} {t : Octree} (h : Good k size t) : 0 < t.resolution :=
  lt_of_lt_of_le (by norm_num) h.tol

theorem Good.size_pos {k : ℕ} {size : ℝ} {t : Octree} (h : Good k size t) : 0 < size := by
  rw [← h.res]; exact mul_pos h.pos (by positivity)

/-! ## Resolution -/

theorem halve_steady (r s : ℝ) : Steady fun n => halve r n s := by
  intro n
  simp only
  induction n generalizing s with
  | zero => intro h; exact absurd rfl h
  | succ n ih =>
    intro h
    unfold halve at h ⊢
    split_ifs at h ⊢ with hc
    · exact ih _ h
    · rfl

theorem halve_spec {r s : ℝ} (k : ℕ) (h1 : s / 2 ^ k ≤ r) (h2 : ∀ j < k, r < s / 2 ^ j) :
    unbounded (fun n => halve r n s) = .ok (s / 2 ^ k) := by
  refine (halve_steady r s).eq (n := k + 1) ?_ (by simp)
  induction k generalizing s with
  | zero => simp at h1; simp [halve, not_lt.2 h1]
  | succ k ih =>
    have h0 := h2 0 (by omega)
    unfold halve
    simp only [pow_zero, div_one] at h0
    rw [if_pos h0]
    have e : ∀ j : ℕ, s / 2 / 2 ^ j = s / 2 ^ (j + 1) := by
      intro j; rw [pow_succ, div_div, mul_comm]
    rw [ih (by rw [e]; exact h1) (fun j hj => by rw [e]; exact h2 _ (by omega)), e]

theorem halve_hang {r s : ℝ} (hr : r ≤ 0) (hs : 0 < s) :
    unbounded (fun n => halve r n s) = .error .hang := by
  classical
  have : ∀ n (s : ℝ), 0 < s → halve r n s = .error .hang := by
    intro n
    induction n with
    | zero => intro s _; rfl
    | succ n ih =>
      intro s hs
      unfold halve
      rw [if_pos (lt_of_le_of_lt hr hs)]
      exact ih _ (by linarith)
  unfold unbounded
  rw [dif_neg]
  push Not
  intro n
  exact this n s hs

theorem exists_depth {r s : ℝ} (hr : 0 < r) : ∃ k : ℕ, s / 2 ^ k ≤ r ∧ ∀ j < k, r < s / 2 ^ j := by
  classical
  have hex : ∃ k : ℕ, s / 2 ^ k ≤ r := by
    obtain ⟨k, hk⟩ := pow_unbounded_of_one_lt (s / r) (by norm_num : (1:ℝ) < 2)
    refine ⟨k, ?_⟩
    rw [div_le_iff₀ (by positivity)]
    rw [div_lt_iff₀ hr] at hk
    linarith
  refine ⟨Nat.find hex, Nat.find_spec hex, fun j hj => ?_⟩
  exact not_le.1 (Nat.find_min hex hj)

theorem new_eq {size r : ℝ} (k : ℕ) (h1 : size / 2 ^ k ≤ r) (h2 : ∀ j < k, r < size / 2 ^ j) :
    Octree.new size r = .ok ⟨size / 2 ^ k, ⟨-size / 2, -size / 2, -size / 2⟩,
      ⟨size / 2, size / 2, size / 2⟩, size, OctNode.new size, Mesh.new, Shape.new⟩ := by
  unfold Octree.new setResolution
  simp only [halve_spec k h1 h2, bind, Except.bind, pure, Except.pure]

theorem good_new {size r : ℝ} (hr : 0 < r) {t : Octree} (h : Octree.new size r = .ok t)
    (htol : 1e-10 ≤ t.resolution) : ∃ k, Good k size t ∧ (∀ c, ¬ Occ k t.root c) ∧ t.mesh = Mesh.new ∧
      t.base.bbValid = false := by
  obtain ⟨k, h1, h2⟩ := exists_depth (s := size) hr
  rw [new_eq k h1 h2, Except.ok.injEq] at h
  subst h
  refine ⟨k, ⟨rfl, ?_, htol, rfl, rfl, by simp [OctNode.new], WF.new _ _⟩, fun c => not_occ_new _ _ _, rfl, rfl⟩
  simp

/-! ## Steps -/

theorem add_good {k : ℕ} {size : ℝ} {t : Octree} (h : Good k size t) (p : Vec3) :
    ∃ t', t.add p = .ok t' ∧ Good k size t' ∧ t'.resolution = t.resolution ∧ t'.mesh = Mesh.new ∧
      t'.base = t.base ∧ ∀ c, Occ k t'.root c ↔ Occ k t.root c ∨ c = cellOf k size (p - t.offset) := by
  have hw := h.wf
  rw [← h.res] at hw
  obtain ⟨n, h1, h2, h3, h4⟩ := OctNode.add_spec h.tol k h.root hw (p - t.offset) (Nat.lt_succ_self k)
  rw [h.res] at h3 h4
  have h5 := (add_steady t.resolution t.root (p - t.offset)).eq h1 (by simp)
  refine ⟨{ t with root := n, mesh := t.mesh.clear }, ?_, ⟨h.size_eq, h.res, h.tol, h.off, h.max, h2, h3⟩,
    rfl, rfl, rfl, h4⟩
  unfold Octree.add
  simp only [h5, bind, Except.bind, pure, Except.pure]

theorem clear_good {k : ℕ} {size : ℝ} {t : Octree} (h : Good k size t) :
    Good k size t.clear ∧ ∀ c, ¬ Occ k t.clear.root c := by
  refine ⟨⟨h.size_eq, h.res, h.tol, h.off, h.max, by simp [Octree.clear, OctNode.new], ?_⟩, ?_⟩
  · show WF k size (OctNode.new t.size)
    rw [h.size_eq]; exact WF.new _ _
  · intro c; exact not_occ_new _ _ _

theorem getMesh_good {k : ℕ} {size : ℝ} {t t' : Octree} {m : Mesh} (h : Good k size t)
    (hm : t.getMesh = .ok (t', m)) : Good k size t' ∧ t'.root = t.root ∧ t'.offset = t.offset ∧
      t'.resolution = t.resolution ∧ t'.base = t.base ∧ t'.mesh = m := by
  unfold Octree.getMesh at hm
  split_ifs at hm with he
  · cases hf : (t.getCubes.foldl (fun m b => m.add b.mesh) t.mesh).filterOverlappingVertices with
    | error e => rw [hf] at hm; simp [bind, Except.bind] at hm
    | ok m0 =>
      rw [hf] at hm
      simp only [bind, Except.bind, pure, Except.pure, Except.ok.injEq, Prod.mk.injEq] at hm
      obtain ⟨rfl, rfl⟩ := hm
      exact ⟨⟨h.size_eq, h.res, h.tol, h.off, h.max, h.root, h.wf⟩, rfl, rfl, rfl, rfl, rfl⟩
  · simp only [Except.ok.injEq, Prod.mk.injEq] at hm
    obtain ⟨rfl, rfl⟩ := hm
    exact ⟨h, rfl, rfl, rfl, rfl, rfl⟩

/-- What `getBoundingBox` does. -/
theorem getBoundingBox_eq {t t' : Octree} {b : Box} (hm : t.getBoundingBox = .ok (t', b)) :
    (t.base.bbValid = true ∧ t' = t ∧ b = Box.new t.base.bbMin t.base.bbMax) ∨
    (t.base.bbValid = false ∧ ∃ t1 m, t.getMesh = .ok (t1, m) ∧
      let bd := Shape.boundsOf m.points ⟨1e9, 1e9, 1e9⟩ ⟨-1e9, -1e9, -1e9⟩
      t' = { t1 with base := { t1.base with bbMin := bd.1, bbMax := bd.2, bbValid := true } } ∧
      b = Box.new bd.1 bd.2) := by
  unfold Octree.getBoundingBox at hm
  by_cases hv : t.base.bbValid = true
  · left
    simp only [hv, if_true, bind, Except.bind, pure, Except.pure, Except.ok.injEq, Prod.mk.injEq] at hm
    exact ⟨hv, hm.1.symm, hm.2.symm⟩
  · right
    refine ⟨by simpa using hv, ?_⟩
    simp only [hv, Bool.false_eq_true, if_false] at hm
    cases hg : t.getMesh with
    | error e => rw [hg] at hm; simp [bind, Except.bind] at hm
    | ok x =>
      obtain ⟨t1, m⟩ := x
      rw [hg] at hm
      simp only [bind, Except.bind, pure, Except.pure, Except.ok.injEq, Prod.mk.injEq] at hm
      exact ⟨t1, m, rfl, hm.1.symm, hm.2.symm⟩

theorem cube_iff {k : ℕ} {size : ℝ} {t : Octree} (h : Good k size t) (p : Vec3) :
    InCube size (p - t.offset) ↔ InBox t.offset t.max p := by
  rw [h.off, h.max]
  unfold InCube InBox
  simp only [Vec3.sub_x, Vec3.sub_y, Vec3.sub_z]
  constructor
  · rintro ⟨⟨a, b⟩, ⟨c, d⟩, ⟨e, f⟩⟩; refine ⟨?_, ?_, ?_, ?_, ?_, ?_⟩ <;> linarith
  · rintro ⟨a, b, c, d, e, f⟩; refine ⟨⟨?_, ?_⟩, ⟨?_, ?_⟩, ⟨?_, ?_⟩⟩ <;> linarith

theorem near_iff (res : ℝ) (off : Vec3) (c : ℕ × ℕ × ℕ) (p : Vec3) :
    Near res c (p - off) ↔ InBox (cellLo res off c) (cellHi res off c) p := by
  unfold Near InBox cellLo cellHi
  simp only [Vec3.sub_x, Vec3.sub_y, Vec3.sub_z]
  constructor
  · rintro ⟨⟨a, b⟩, ⟨c, d⟩, ⟨e, f⟩⟩; refine ⟨?_, ?_, ?_, ?_, ?_, ?_⟩ <;> linarith
  · rintro ⟨a, b, c, d, e, f⟩; refine ⟨⟨?_, ?_⟩, ⟨?_, ?_⟩, ⟨?_, ?_⟩⟩ <;> linarith

theorem thick_iff (res : ℝ) (off o u : Vec3) (c : ℕ × ℕ × ℕ) (x y : ℝ) :
    Thick res (o - off) u c x y ↔ Crosses res off o u c x y := by
  unfold Thick Crosses Inside cellLo cellHi
  simp only [along_sub, Vec3.sub_x, Vec3.sub_y, Vec3.sub_z]
  have e : res * 0.1 = res / 10 := by norm_num; ring
  rw [e]
  refine and_congr Iff.rfl (forall_congr' fun t => imp_congr_right fun _ => imp_congr_right fun _ => ?_)
  constructor
  · rintro ⟨⟨a, b⟩, ⟨c, d⟩, ⟨e, f⟩⟩; refine ⟨?_, ?_, ?_, ?_, ?_, ?_⟩ <;> linarith
  · rintro ⟨a, b, c, d, e, f⟩; refine ⟨⟨?_, ?_⟩, ⟨?_, ?_⟩, ⟨?_, ?_⟩⟩ <;> linarith

theorem cell_iff {k : ℕ} {size : ℝ} {t : Octree} (h : Good k size t) (p : Vec3) (c : ℕ × ℕ × ℕ) :
    c = cellOf k size (p - t.offset) ↔ InCell t.resolution (2 ^ k) t.offset c p := by
  unfold cellOf InCell
  rw [← h.res, ← axisIdx_iff h.pos, ← axisIdx_iff h.pos, ← axisIdx_iff h.pos]
  obtain ⟨c1, c2, c3⟩ := c
  simp only [Prod.mk.injEq, Vec3.sub_x, Vec3.sub_y, Vec3.sub_z]

/-! ## Rays -/

theorem unit_of {d u : Vec3} (h : UnitAlong d u) : Unit3 u := h.1

theorem leaves {s : ℝ} (hs : 0 < s) {u : Vec3} (hu : Unit3 u) (o : Vec3) :
    ∀ t, 2 * (s + |o.x| + |o.y| + |o.z|) < t → ¬ InCube s (along o u t) := by
  intro t ht h
  have key : ∀ x v : ℝ, 0 ≤ x + t * v → x + t * v ≤ s → |t * v| ≤ s + |x| := by
    intro x v h1 h2
    rw [abs_le]
    have := neg_abs_le x
    have := le_abs_self x
    constructor <;> linarith
  have hx := key o.x u.x h.1.1 h.1.2
  have hy := key o.y u.y h.2.1.1 h.2.1.2
  have hz := key o.z u.z h.2.2.1 h.2.2.2
  have h0 := abs_nonneg o.x
  have h1 := abs_nonneg o.y
  have h2 := abs_nonneg o.z
  set M := s + |o.x| + |o.y| + |o.z| with hM
  have hMpos : 0 < M := by rw [hM]; linarith
  have sq : ∀ v x : ℝ, |t * v| ≤ s + |x| → s + |x| ≤ M → (t * v) ^ 2 ≤ M ^ 2 := by
    intro v x h1 h2
    rw [← sq_abs (t * v)]
    exact pow_le_pow_left₀ (abs_nonneg _) (h1.trans h2) 2
  have s1 := sq u.x o.x hx (by rw [hM]; linarith)
  have s2 := sq u.y o.y hy (by rw [hM]; linarith)
  have s3 := sq u.z o.z hz (by rw [hM]; linarith)
  have e : t ^ 2 = (t * u.x) ^ 2 + (t * u.y) ^ 2 + (t * u.z) ^ 2 := by
    have : t ^ 2 * (u.x ^ 2 + u.y ^ 2 + u.z ^ 2) = t ^ 2 * 1 := by rw [show u.x ^ 2 + u.y ^ 2 + u.z ^ 2 = 1 from hu]
    linarith
  have e2 : (2 * M) ^ 2 < t ^ 2 := pow_lt_pow_left₀ ht (by linarith) (by norm_num)
  nlinarith [sq_nonneg M]

/-- The first probed parameter of a ray query. -/
noncomputable def start (t : Octree) (r : Ray) (t0 t1 : ℝ) : ℝ :=
  t0 + Max.max ((Box.new t.offset t.max).intersectRay r t0 t1 0).2 0 + t.resolution * 0.1

theorem start_ge {k : ℕ} {size : ℝ} {t : Octree} (h : Good k size t) (r : Ray) (t0 t1 : ℝ) :
    t0 ≤ t.start r t0 t1 := by
  have := le_max_right ((Box.new t.offset t.max).intersectRay r t0 t1 0).2 0
  have := mul_pos h.pos (by norm_num : (0:ℝ) < 0.1)
  unfold start
  linarith

theorem root_wf {k : ℕ} {size : ℝ} {t : Octree} (h : Good k size t) :
    WF k (t.resolution * 2 ^ k) t.root := by rw [h.res]; exact h.wf

/-- The ray cast on a tree whose cube is hit. -/
theorem intersectRay_good {k : ℕ} {size : ℝ} {t : Octree} (h : Good k size t) {o d u : Vec3}
    (hu : UnitAlong d u) (t0 t1 d0 : ℝ)
    (hhit : ((Box.new t.offset t.max).intersectRay (Ray.new o d) t0 t1 0).1 = true) :
    ∃ hit d' f, t.intersectRay (Ray.new o d) t0 t1 d0 = .ok (hit, d') ∧
      t.root.intersectRay t.resolution f (Ray.new (o - t.offset) u) (t.start (Ray.new o d) t0 t1) t1 d0 =
        .ok (hit, d') := by
  have hun := unit_of hu
  have hdir : (Ray.new o d).direction = u := unitAlong_normalized hu
  set s0 := t.start (Ray.new o d) t0 t1 with hs0
  set T := 2 * (size + |(o - t.offset).x| + |(o - t.offset).y| + |(o - t.offset).z|)
  obtain ⟨m, hm⟩ := exists_nat_gt ((T - s0) / (t.resolution * 0.1))
  have hr : 0 < t.resolution * 0.1 := mul_pos h.pos (by norm_num)
  rw [div_lt_iff₀ hr] at hm
  obtain ⟨⟨hit, d'⟩, hx⟩ := intersectRay_total h.pos hun t1 T (k + m + 1) k m t.root (o - t.offset) s0 d0
    le_rfl h.root (root_wf h) (by rw [h.res]; exact leaves h.size_pos hun _) hm
  refine ⟨hit, d', k + m + 1, ?_, hx⟩
  have := (intersectRay_steady t.resolution t.root (o - t.offset) u hun s0 t1 d0).eq hx (by simp)
  unfold Octree.intersectRay
  simp only [hhit, Bool.not_true, Bool.false_eq_true, if_false, hdir]
  exact this

/-- Tracing through a tree whose cube is hit. -/
theorem raytrace_good {k : ℕ} {size : ℝ} {t : Octree} (h : Good k size t) {o d u : Vec3}
    (hu : UnitAlong d u) (t0 t1 : ℝ)
    (hhit : ((Box.new t.offset t.max).intersectRay (Ray.new o d) t0 t1 0).1 = true) :
    ∃ f n t', t.root.raytrace t.resolution f (o - t.offset) u (t.start (Ray.new o d) t0 t1) t1 = .ok n ∧
      t.raytrace (Ray.new o d) t0 t1 = .ok t' ∧ Good k size t' ∧ t'.resolution = t.resolution ∧
      t'.mesh = Mesh.new ∧ t'.base = t.base ∧
      ∀ c, Occ k t'.root c ↔ Occ k n c ∨ c = cellOf k size (along o u t1 - t.offset) := by
  have hun := unit_of hu
  have hdir : (Ray.new o d).direction = u := unitAlong_normalized hu
  set s0 := t.start (Ray.new o d) t0 t1 with hs0
  obtain ⟨m, hm⟩ := exists_nat_gt ((t1 - s0) / (t.resolution * 0.1))
  have hr : 0 < t.resolution * 0.1 := mul_pos h.pos (by norm_num)
  rw [div_lt_iff₀ hr] at hm
  obtain ⟨n, hx, hne, hw⟩ := raytrace_total hun t1 (k + m + 1) k m t.root (o - t.offset) s0
    le_rfl h.root (root_wf h) hm
  rw [h.res] at hw
  have hg : Good k size { t with root := n } := ⟨h.size_eq, h.res, h.tol, h.off, h.max, hne, hw⟩
  obtain ⟨t', a1, a2, a3, a4, a5, a6⟩ := add_good hg (along o u t1)
  refine ⟨k + m + 1, n, { t' with mesh := t'.mesh.clear }, hx, ?_,
    ⟨a2.size_eq, a2.res, a2.tol, a2.off, a2.max, a2.root, a2.wf⟩, a3, ?_, a5, a6⟩
  · have hub := (raytrace_steady t.resolution t.root (o - t.offset) u s0 t1).eq hx (by simp)
    have he : (Ray.new o d).origin + (Ray.new o d).direction * t1 = along o u t1 := by
      rw [hdir]
      show o + u * t1 = _
      unfold along
      ext <;> simp <;> ring
    unfold Octree.raytrace
    simp only [hhit, Bool.not_true, Bool.false_eq_true, if_false, hdir]
    rw [hdir] at he
    simp only [he]
    unfold start at hs0
    rw [hs0] at hub
    show (unbounded (fun n => t.root.raytrace t.resolution n (o - t.offset) u _ t1) >>= _) = _
    rw [hub]
    simp only [bind, Except.bind, pure, Except.pure, a1]
  · rfl

theorem raytrace_miss {t : Octree} {r : Ray} {t0 t1 : ℝ}
    (hhit : ((Box.new t.offset t.max).intersectRay r t0 t1 0).1 = false) :
    t.raytrace r t0 t1 = .ok t := by
  unfold Octree.raytrace
  simp [hhit]

/-! ## Histories -/

theorem step_good {k : ℕ} {size : ℝ} {t t' : Octree} {op : Op} (h : Good k size t) (hop : OctOpOk op)
    (hs : t.step op = .ok t') : Good k size t' ∧ t'.resolution = t.resolution := by
  cases op with
  | add p =>
    obtain ⟨t'', h1, h2, h3, -⟩ := add_good h p
    have : t'' = t' := by simpa [step, h1] using hs
    exact this ▸ ⟨h2, h3⟩
  | clear =>
    simp only [step, Except.ok.injEq] at hs
    subst hs
    exact ⟨(clear_good h).1, rfl⟩
  | raytrace r t0 t1 =>
    obtain ⟨o, d, u, hu, rfl⟩ := hop
    cases hh : ((Box.new t.offset t.max).intersectRay (Ray.new o d) t0 t1 0).1 with
    | true =>
      obtain ⟨f, n, t'', h1, h2, h3, h4, -⟩ := raytrace_good h hu t0 t1 hh
      have : t'' = t' := by simpa [step, h2] using hs
      exact this ▸ ⟨h3, h4⟩
    | false =>
      have : t = t' := by simpa [step, raytrace_miss hh] using hs
      exact this ▸ ⟨h, rfl⟩
  | getMesh =>
    unfold step at hs
    cases hg : t.getMesh with
    | error e => rw [hg] at hs; simp [bind, Except.bind] at hs
    | ok x =>
      obtain ⟨t1, m⟩ := x
      rw [hg] at hs
      simp only [bind, Except.bind, pure, Except.pure, Except.ok.injEq] at hs
      subst hs
      have := getMesh_good h hg
      exact ⟨this.1, this.2.2.2.1⟩
  | getBoundingBox =>
    unfold step at hs
    cases hg : t.getBoundingBox with
    | error e => rw [hg] at hs; simp [bind, Except.bind] at hs
    | ok x =>
      obtain ⟨t1, m⟩ := x
      rw [hg] at hs
      simp only [bind, Except.bind, pure, Except.pure, Except.ok.injEq] at hs
      subst hs
      rcases getBoundingBox_eq hg with ⟨-, rfl, -⟩ | ⟨-, t2, m2, h1, h2⟩
      · exact ⟨h, rfl⟩
      · obtain ⟨rfl, -⟩ := h2
        have := getMesh_good h h1
        exact ⟨⟨this.1.size_eq, this.1.res, this.1.tol, this.1.off, this.1.max, this.1.root, this.1.wf⟩,
          this.2.2.2.1⟩

theorem run_cons {t t' : Octree} {op : Op} {ops : List Op} (h : t.run (op :: ops) = .ok t') :
    ∃ t1, t.step op = .ok t1 ∧ t1.run ops = .ok t' := by
  unfold run at h
  cases hs : t.step op with
  | error e => rw [hs] at h; simp [bind, Except.bind] at h
  | ok t1 => rw [hs] at h; exact ⟨t1, rfl, h⟩

theorem run_res {t t' : Octree} {ops : List Op} (h : t.run ops = .ok t') : t'.resolution = t.resolution := by
  induction ops generalizing t with
  | nil => simp only [run, Except.ok.injEq] at h; rw [h]
  | cons op ops ih =>
    obtain ⟨t1, h1, h2⟩ := run_cons h
    rw [ih h2]
    have keyAdd : ∀ (t t1 : Octree) p, t.add p = .ok t1 → t1.resolution = t.resolution := by
      intro t t1 p h1
      unfold Octree.add at h1
      cases hu : (unbounded fun n => OctNode.add t.resolution n t.root (p - t.offset)) with
      | error e => rw [hu] at h1; simp [bind, Except.bind] at h1
      | ok n =>
        rw [hu] at h1
        simp only [bind, Except.bind, pure, Except.pure, Except.ok.injEq] at h1
        subst h1; rfl
    have keyMesh : ∀ (t t1 : Octree) m, t.getMesh = .ok (t1, m) → t1.resolution = t.resolution := by
      intro t t1 m hm
      unfold Octree.getMesh at hm
      split_ifs at hm with he
      · cases hf : (t.getCubes.foldl (fun m b => m.add b.mesh) t.mesh).filterOverlappingVertices with
        | error e => rw [hf] at hm; simp [bind, Except.bind] at hm
        | ok m0 =>
          rw [hf] at hm
          simp only [bind, Except.bind, pure, Except.pure, Except.ok.injEq, Prod.mk.injEq] at hm
          obtain ⟨rfl, rfl⟩ := hm; rfl
      · simp only [Except.ok.injEq, Prod.mk.injEq] at hm
        obtain ⟨rfl, rfl⟩ := hm; rfl
    cases op with
    | add p => exact keyAdd _ _ _ h1
    | clear => simp only [step, Except.ok.injEq] at h1; subst h1; rfl
    | raytrace r t0 t1' =>
      unfold step Octree.raytrace at h1
      simp only at h1
      split_ifs at h1 with hc
      · simp only [Except.ok.injEq] at h1; subst h1; rfl
      · cases hu : (unbounded fun n => t.root.raytrace t.resolution n (r.origin - t.offset) r.direction
          (t0 + Max.max ((Box.new t.offset t.max).intersectRay r t0 t1' 0).2 0 + t.resolution * 0.1) t1') with
        | error e => rw [hu] at h1; simp [bind, Except.bind] at h1
        | ok n =>
          rw [hu] at h1
          simp only [bind, Except.bind] at h1
          cases ha : ({ t with root := n } : Octree).add (r.origin + r.direction * t1') with
          | error e => rw [ha] at h1; simp at h1
          | ok t2 =>
            rw [ha] at h1
            simp only [pure, Except.pure, Except.ok.injEq] at h1
            subst h1
            exact (keyAdd _ t2 _ ha :)
    | getMesh =>
      unfold step at h1
      cases hg : t.getMesh with
      | error e => rw [hg] at h1; simp [bind, Except.bind] at h1
      | ok x =>
        obtain ⟨t2, m⟩ := x
        rw [hg] at h1
        simp only [bind, Except.bind, pure, Except.pure, Except.ok.injEq] at h1
        subst h1
        exact keyMesh _ _ _ hg
    | getBoundingBox =>
      unfold step at h1
      cases hg : t.getBoundingBox with
      | error e => rw [hg] at h1; simp [bind, Except.bind] at h1
      | ok x =>
        obtain ⟨t2, m⟩ := x
        rw [hg] at h1
        simp only [bind, Except.bind, pure, Except.pure, Except.ok.injEq] at h1
        subst h1
        rcases getBoundingBox_eq hg with ⟨-, rfl, -⟩ | ⟨-, t2, m2, h1, h2⟩
        · rfl
        · obtain ⟨rfl, -⟩ := h2
          exact (keyMesh _ t2 _ h1 :)

theorem run_good {k : ℕ} {size : ℝ} {t t' : Octree} {ops : List Op} (h : Good k size t)
    (hop : ∀ o ∈ ops, OctOpOk o) (hs : t.run ops = .ok t') : Good k size t' := by
  induction ops generalizing t with
  | nil => simp only [run, Except.ok.injEq] at hs; exact hs ▸ h
  | cons op ops ih =>
    obtain ⟨t1, h1, h2⟩ := run_cons hs
    exact ih (step_good h (hop op (by simp)) h1).1 (fun o ho => hop o (by simp [ho])) h2

theorem reach_good {size : ℝ} {t : Octree} (h : OctReach size t) : ∃ k, Good k size t := by
  obtain ⟨hs, htol, r, t0, ops, hr, h1, h2, h3⟩ := h
  rw [run_res h3] at htol
  obtain ⟨k, hk, -⟩ := good_new hr h1 htol
  exact ⟨k, run_good hk h2 h3⟩

theorem good_shows {k : ℕ} {size : ℝ} {t : Octree} (h : Good k size t) :
    Shows t t.resolution t.offset (Occ k t.root) := by
  obtain ⟨cells, h1, h2, h3⟩ := getCubes_spec k (root_wf h) t.offset
  exact ⟨cells, h1, h2, h3⟩

theorem cellLo_inj {r : ℝ} (hr : 0 < r) (off : Vec3) {c c' : ℕ × ℕ × ℕ} (h : cellLo r off c = cellLo r off c') :
    c = c' := by
  unfold cellLo at h
  simp only [Vec3.mk.injEq, add_right_inj, mul_eq_mul_right_iff, Nat.cast_inj, hr.ne', or_false] at h
  exact Prod.ext h.1 (Prod.ext h.2.1 h.2.2)

theorem shows_unique {t : Octree} {r : ℝ} (hr : 0 < r) {off : Vec3} {S S' : ℕ × ℕ × ℕ → Prop}
    (h : Shows t r off S) (h' : Shows t r off S') : ∀ c, S c ↔ S' c := by
  obtain ⟨l, -, h1, h2⟩ := h
  obtain ⟨l', -, h1', h2'⟩ := h'
  intro c
  rw [← h1, ← h1']
  have e := h2.symm.trans h2'
  have key : ∀ l l' : List (ℕ × ℕ × ℕ), (l.map fun c => Box.new (cellLo r off c) (cellHi r off c)) =
      (l'.map fun c => Box.new (cellLo r off c) (cellHi r off c)) → c ∈ l → c ∈ l' := by
    intro l l' e hc
    have : Box.new (cellLo r off c) (cellHi r off c) ∈ l'.map fun c => Box.new (cellLo r off c) (cellHi r off c) := by
      rw [← e]; exact List.mem_map.2 ⟨c, hc, rfl⟩
    obtain ⟨c', hc', he⟩ := List.mem_map.1 this
    have := congrArg Box.lo he
    simp only [Box.new_lo] at this
    rw [← cellLo_inj hr off this]
    exact hc'
  exact ⟨key _ _ e, key _ _ e.symm⟩

end Octree

end Geo
