import Verif.Lemmas.RoundedOctree
import Verif.Lemmas.NanComposite
import Verif.Props.Octree

/-!
# Property theorems C120: octrees in floating point arithmetic
-/

namespace Geo
open Spec

/-- C120, model: without roundings the functions are those of `Model/Octree`. -/
theorem C120_exact (size request : ℝ) (t : Octree) (p : Vec3) (ops : List (Option Vec3)) :
    Rounded.octNew id size request = Octree.new size request ∧ Rounded.octAdd id t p = t.add p ∧ Rounded.octCubes id t = t.getCubes ∧
      Rounded.octRun id ops t = t.run (asOps ops) := by
  have h1 : ∀ (res : ℝ) (n : ℕ) (t : OctNode) (p : Vec3), Rounded.nodeAdd id res n t p = OctNode.add res n t p := by
    intro res n
    induction n with
    | zero => intro t p; rfl
    | succ n ih =>
      intro t p
      cases t with
      | null => rfl
      | node s o ch =>
        unfold Rounded.nodeAdd OctNode.add
        simp only [id, ih]
        congr 3
        ext <;> simp only [OctNode.shift, Vec3.sub_x, Vec3.sub_y, Vec3.sub_z] <;> split_ifs <;> simp
  have h2 : ∀ (t : OctNode) (o : Vec3), Rounded.nodeCubes id t o = t.getCubes o := by
    intro t
    induction t with
    | null => intro o; rfl
    | node s oc ch ih =>
      intro o
      unfold Rounded.nodeCubes OctNode.getCubes
      simp only [ih]
      rfl
  have h3 : ∀ (limit : ℝ) (n : ℕ) (res : ℝ), Rounded.halve id limit n res = Octree.halve limit n res := by
    intro limit n
    induction n with
    | zero => intro res; rfl
    | succ n ih =>
      intro res
      unfold Rounded.halve Octree.halve
      simp only [id, ih]
  have h4 : ∀ (t : Octree) (p : Vec3), Rounded.octAdd id t p = t.add p := by
    intro t p
    unfold Rounded.octAdd Octree.add
    simp only [h1]
    rfl
  refine ⟨?_, h4 t p, h2 _ _, ?_⟩
  · unfold Rounded.octNew Octree.new Octree.setResolution
    simp only [h3, id, bind, Except.bind, pure, Except.pure]
    cases unbounded fun n => Octree.halve request n size <;> rfl
  · induction ops generalizing t with
    | nil => rfl
    | cons o ops ih =>
      cases o with
      | none => exact ih t.clear
      | some p =>
        simp only [Rounded.octRun, asOps, List.map_cons, Octree.run, Octree.step, h4]
        cases t.add p with
        | error e => rfl
        | ok t' => exact ih t'

/-- C120 case: a new tree of size 10. -/
example : ∃ t, Rounded.octNew id 10 3 = .ok t ∧ t.getResolution = 2.5 := by
  rw [(C120_exact 10 3 ⟨0, ⟨0, 0, 0⟩, ⟨0, 0, 0⟩, 0, .null, Mesh.new, Shape.new⟩ ⟨0, 0, 0⟩ []).1]
  exact ⟨_, Octree.new_eq 2 (by norm_num) (by intro j hj; interval_cases j <;> norm_num), by norm_num [Octree.getResolution]⟩

/-- C120, histories: with roundings to `double`, the constructor gives the same tree as with real numbers, and after any additions of
points of the tree and clearings the tree is exactly the one that real numbers give for points each moved by at most
size / 2^53 along each axis. -/
theorem C120_history (size request : ℝ) (hs : toDouble size = size) (hr : 0 < request) (t0 : Octree)
    (h0 : Rounded.octNew toDouble size request = .ok t0) (h1 : 1e-10 ≤ t0.resolution) (h2 : t0.resolution ≤ 2 ^ 19)
    (ops : List (Option Vec3))
    (hp : ∀ p, some p ∈ ops → InBox ⟨-size / 2, -size / 2, -size / 2⟩ ⟨size / 2, size / 2, size / 2⟩ p) :
    Octree.new size request = .ok t0 ∧ ∃ t ops', Rounded.octRun toDouble ops t0 = .ok t ∧ t0.run (asOps ops') = .ok t ∧
      List.Forall₂ (fun o o' => (o = none ∧ o' = none) ∨ ∃ p p', o = some p ∧ o' = some p' ∧ Moved (size / 2 ^ 53) p' p ∧
        InBox ⟨-size / 2, -size / 2, -size / 2⟩ ⟨size / 2, size / 2, size / 2⟩ p') ops ops' := by
  have h0' : Octree.new size request = .ok t0 := by rw [← Octree.octNew_eq hs]; exact h0
  refine ⟨h0', ?_⟩
  obtain ⟨k, hg, -⟩ := Octree.good_new hr h0' h1
  clear h0 h0' h1
  induction ops generalizing t0 with
  | nil => exact ⟨t0, [], rfl, rfl, .nil⟩
  | cons o ops ih =>
    have hp' : ∀ p, some p ∈ ops → InBox ⟨-size / 2, -size / 2, -size / 2⟩ ⟨size / 2, size / 2, size / 2⟩ p :=
      fun p h => hp p (by simp [h])
    cases o with
    | none =>
      obtain ⟨t, ops', e1, e2, e3⟩ := ih t0.clear h2 hp' (Octree.clear_good hg).1
      exact ⟨t, none :: ops', e1, e2, .cons (.inl ⟨rfl, rfl⟩) e3⟩
    | some p =>
      obtain ⟨p', a1, a2, a3⟩ := Octree.octAdd_eq hg hs h2 (hp p (by simp))
      obtain ⟨t1, b1, b2, b3, -⟩ := Octree.add_good hg p'
      obtain ⟨t, ops', e1, e2, e3⟩ := ih t1 (by rw [b3]; exact h2) hp' b2
      refine ⟨t, some p' :: ops', ?_, ?_, .cons (.inr ⟨p, p', rfl, rfl, a3, a2⟩) e3⟩
      · simp only [Rounded.octRun, a1, b1, bind, Except.bind]
        exact e1
      · simp only [asOps, List.map_cons, Octree.run, Octree.step, b1, bind, Except.bind]
        exact e2

/-- A tree of size 10 with cells of 2.5, that is two levels. Used in the cases below. -/
theorem ten : toDouble 10 = 10 ∧ ∃ t0, Rounded.octNew toDouble 10 3 = .ok t0 ∧ Octree.new 10 3 = .ok t0 ∧ t0.resolution = 2.5 := by
  have hd : toDouble 10 = 10 := by
    have := toDouble_grid (m := 10) (k := 0) (by norm_num)
    simpa using this
  have h := Octree.new_eq (size := 10) (r := 3) 2 (by norm_num) (by intro j hj; interval_cases j <;> norm_num)
  exact ⟨hd, _, (Octree.octNew_eq hd 3).trans h, h, by norm_num⟩

/-- A point, a clearing and two points. Used in the cases below. -/
theorem ten_points : ∀ p, some p ∈ [some (⟨1, 1, 1⟩ : Vec3), none, some ⟨2, -3, 4⟩, some ⟨0.1, 5, -0.3⟩] →
    InBox ⟨-10 / 2, -10 / 2, -10 / 2⟩ ⟨10 / 2, 10 / 2, 10 / 2⟩ p := by
  intro p hp
  simp only [List.mem_cons, List.not_mem_nil, or_false, Option.some.injEq, reduceCtorEq, false_or] at hp
  rcases hp with rfl | rfl | rfl <;> norm_num [InBox]

/-- C120 case: a history. -/
example : ∃ t0 t ops', Rounded.octRun toDouble [some ⟨1, 1, 1⟩, none, some ⟨2, -3, 4⟩, some ⟨0.1, 5, -0.3⟩] t0 = .ok t ∧
    t0.run (asOps ops') = .ok t ∧ ops'.length = 4 := by
  obtain ⟨hd, t0, h1, -, h3⟩ := ten
  obtain ⟨-, t, ops', e1, e2, e3⟩ := C120_history 10 3 hd (by norm_num) t0 h1 (by rw [h3]; norm_num) (by rw [h3]; norm_num) _ ten_points
  exact ⟨t0, t, ops', e1, e2, e3.length_eq.symm⟩

/-- C120, cubes: the cubes of a tree of up to 2^52 levels, listed with roundings, have their corners within (levels + 1) size / 2^53 of those
of the cubes listed with real numbers, in the same order. -/
theorem C120_cubes (size : ℝ) (hs : toDouble size = size) (t : Octree) (h : OctReach size t) (N : ℕ) (hN : t.resolution * 2 ^ N = size)
    (hN' : N ≤ 2 ^ 52) : List.Forall₂ (MovedBox ((N + 1) * (size / 2 ^ 53))) (Rounded.octCubes toDouble t) t.getCubes := by
  obtain ⟨hpos, htol, request, t0, ops, hr, h0, hops, hrun⟩ := h
  have hres := Octree.run_res hrun
  obtain ⟨k, hg0, -⟩ := Octree.good_new hr h0 (by rw [← hres]; exact htol)
  have hg := Octree.run_good hg0 hops hrun
  have e : k = N := by
    have h1 : t.resolution * 2 ^ k = t.resolution * 2 ^ N := by rw [hN, hg.res]
    have h2 := mul_left_cancel₀ hg.pos.ne' h1
    exact Nat.pow_right_injective le_rfl (by exact_mod_cast h2 : (2 : ℕ) ^ k = 2 ^ N)
  subst e
  have := nodeCubes_near (B := size / 2) (by linarith) k size t.root t.offset t.offset 0 hg.wf hs hpos.le
    (by rw [hg.off]; constructor <;> simp <;> linarith) (by rw [hg.off]; constructor <;> simp <;> linarith)
    (by rw [hg.off]; constructor <;> simp <;> linarith) (by simp [Moved]) (by omega)
  have e : (((0 + k + 1 : ℕ) : ℝ)) * (2 * (size / 2) / 2 ^ 53) = (k + 1) * (size / 2 ^ 53) := by
    push_cast
    ring
  rw [e] at this
  exact this

/-- C120 case: the cubes after adding a point to that tree. -/
example : ∃ t, OctReach 10 t ∧ t.resolution = 2.5 ∧ List.Forall₂ (MovedBox (3 * (10 / 2 ^ 53))) (Rounded.octCubes toDouble t) t.getCubes := by
  obtain ⟨hd, t0, -, h2, h3⟩ := ten
  obtain ⟨k, hg, -⟩ := Octree.good_new (by norm_num) h2 (by rw [h3]; norm_num)
  obtain ⟨t, e1, -, e3, -⟩ := Octree.add_good hg ⟨2, -3, 4⟩
  have hreach : OctReach 10 t := ⟨by norm_num, by rw [e3, h3]; norm_num, 3, t0, [.add ⟨2, -3, 4⟩], by norm_num, h2,
    by intro o ho; rw [List.mem_singleton] at ho; subst ho; trivial, by simp [Octree.run, Octree.step, e1, bind, Except.bind]⟩
  have := C120_cubes 10 hd t hreach 2 (by rw [e3, h3]; norm_num) (by norm_num)
  exact ⟨t, hreach, by rw [e3, h3], by norm_num at this ⊢; exact this⟩

/-- C120, points and cubes: after any additions of points of the tree and clearings, with roundings in all operations, each point added since the
last clearing is in one of the listed cubes, and each listed cube holds one of them, up to (levels + 2) size / 2^53. -/
theorem C120_points (size request : ℝ) (hs : toDouble size = size) (hpos : 0 < size) (hr : 0 < request) (t0 : Octree)
    (h0 : Rounded.octNew toDouble size request = .ok t0) (h1 : 1e-10 ≤ t0.resolution) (h2 : t0.resolution ≤ 2 ^ 19)
    (ops : List (Option Vec3))
    (hp : ∀ p, some p ∈ ops → InBox ⟨-size / 2, -size / 2, -size / 2⟩ ⟨size / 2, size / 2, size / 2⟩ p) (N : ℕ)
    (hN : t0.resolution * 2 ^ N = size) (hN' : N ≤ 2 ^ 52) :
    ∃ t, Rounded.octRun toDouble ops t0 = .ok t ∧
      (∀ p ∈ kept ops [], ∃ b ∈ Rounded.octCubes toDouble t, InWide ((N + 2) * (size / 2 ^ 53)) b p) ∧
      ∀ b ∈ Rounded.octCubes toDouble t, ∃ p ∈ kept ops [], InWide ((N + 2) * (size / 2 ^ 53)) b p := by
  obtain ⟨h0', t, ops', e1, e2, e3⟩ := C120_history size request hs hr t0 h0 h1 h2 ops hp
  have hun : Untraced (asOps ops') := by
    intro r a b h
    obtain ⟨o, -, ho⟩ := List.mem_map.1 h
    cases o <;> cases ho
  have hok : ∀ o ∈ asOps ops', OctOpOk o := by
    intro o h
    obtain ⟨o, -, rfl⟩ := List.mem_map.1 h
    cases o <;> trivial
  have hres := Octree.run_res e2
  obtain ⟨n, n1, n2, n3, ⟨cells, c1, c2, c3⟩, -, c5⟩ := C36_cubes_partial size request t0 t _ hr h0' h1 hun e2
  have hcub := C120_cubes size hs t ⟨hpos, by rw [hres]; exact h1, request, t0, _, hr, h0', hok, e2⟩ N (by rw [hres]; exact hN) hN'
  have hkept := kept_rel e3 (ps := []) (ps' := []) .nil
  rw [kept_live] at c5
  have eε : (N + 1) * (size / 2 ^ 53) + size / 2 ^ 53 = (N + 2) * (size / 2 ^ 53) := by ring
  refine ⟨t, e1, fun p hpk => ?_, fun b hb => ?_⟩
  · obtain ⟨p', k1, k2, k3⟩ := forall2_left hkept p hpk
    obtain ⟨b, b1, b2⟩ := c5 p' k1 k3
    obtain ⟨b', b3, b4⟩ := forall2_right hcub b b1
    exact ⟨b', b3, eε ▸ wide_of b4 k2 b2⟩
  · obtain ⟨b', b1, b2⟩ := forall2_left hcub b hb
    rw [c3] at b1
    obtain ⟨c, d1, rfl⟩ := List.mem_map.1 b1
    obtain ⟨p', d2, d3⟩ := (c2 c).1 d1
    rw [kept_live] at d2
    obtain ⟨p, k1, k2, k3⟩ := forall2_right hkept p' d2
    rw [n3, n2] at d3 b2
    exact ⟨p, k1, eε ▸ wide_of b2 k2 (by simpa using cell_in n1 d3 k3)⟩

/-- C120 case: points and cubes. -/
example : ∃ t0 t, Rounded.octRun toDouble [some ⟨1, 1, 1⟩, none, some ⟨2, -3, 4⟩, some ⟨0.1, 5, -0.3⟩] t0 = .ok t ∧
    ∃ b ∈ Rounded.octCubes toDouble t, InWide (4 * (10 / 2 ^ 53)) b ⟨0.1, 5, -0.3⟩ := by
  obtain ⟨hd, t0, h1, -, h3⟩ := ten
  obtain ⟨t, e1, e2, -⟩ := C120_points 10 3 hd (by norm_num) (by norm_num) t0 h1 (by rw [h3]; norm_num) (by rw [h3]; norm_num) _ ten_points
    2 (by rw [h3]; norm_num) (by norm_num)
  obtain ⟨b, b1, b2⟩ := e2 ⟨0.1, 5, -0.3⟩ (by simp [kept])
  exact ⟨t0, t, e1, b, b1, by norm_num at b2 ⊢; exact b2⟩

/-- C120, powers of two: if the size is a power of two and there are at most 54 levels, the cubes are listed without any error. -/
theorem C120_power (e : ℤ) (t : Octree) (h : OctReach (2 ^ e) t) (N : ℕ) (hN : t.resolution * 2 ^ N = 2 ^ e) (hN' : N ≤ 54) :
    Rounded.octCubes toDouble t = t.getCubes := by
  obtain ⟨hpos, htol, request, t0, ops, hr, h0, hops, hrun⟩ := h
  have hres := Octree.run_res hrun
  obtain ⟨k, hg0, -⟩ := Octree.good_new hr h0 (by rw [← hres]; exact htol)
  have hg := Octree.run_good hg0 hops hrun
  have ek : k = N := by
    have h1 : t.resolution * 2 ^ k = t.resolution * 2 ^ N := by rw [hN, hg.res]
    have h2 := mul_left_cancel₀ hg.pos.ne' h1
    exact Nat.pow_right_injective le_rfl (by exact_mod_cast h2 : (2 : ℕ) ^ k = 2 ^ N)
  subst ek
  have hw := hg.wf
  have two : (2 : ℝ) ≠ 0 := by norm_num
  unfold Rounded.octCubes Octree.getCubes
  rw [hg.off]
  cases k with
  | zero =>
    -- a single cell: its corners are ± half the size
    have e1 : (2 : ℝ) ^ e = 2 ^ (0 + 1) * 2 ^ (e - 1) := by rw [zpow_sub₀ two]; norm_num; ring
    have hd := toDouble_pow e
    have hh : toDouble (-(2 : ℝ) ^ e / 2 + 2 ^ e) = -(2 : ℝ) ^ e / 2 + 2 ^ e := by
      rw [show -(2 : ℝ) ^ e / 2 + 2 ^ e = 2 ^ e / 2 by ring]
      exact toDouble_half hd
    cases hroot : t.root with
    | null => rfl
    | node s oc ch =>
      rw [hroot] at hw
      obtain ⟨rfl, hch⟩ := hw
      unfold Rounded.nodeCubes OctNode.getCubes
      cases oc with
      | true =>
        simp only [if_true, Rounded.add, hh]
        rfl
      | false =>
        simp only [Bool.false_eq_true, if_false, hch]
        rfl
  | succ k =>
    have e1 : (2 : ℝ) ^ e = 2 ^ (k + 1) * 2 ^ (e - (k + 1)) := by
      rw [← zpow_natCast, ← zpow_add₀ two]
      congr 1
      push_cast
      ring
    have e2 : -(2 : ℝ) ^ e / 2 = ((-2 ^ k : ℤ) : ℝ) * 2 ^ (e - (k + 1)) := by
      rw [e1, pow_succ]
      push_cast
      ring
    rw [e1] at hw
    rw [e2]
    have hk : (2 : ℤ) ^ k ≤ 2 ^ 53 := pow_le_pow_right₀ (by norm_num) (by omega)
    have hb : -2 ^ 53 ≤ (-2 ^ k : ℤ) ∧ (-2 ^ k : ℤ) + 2 ^ (k + 1) ≤ 2 ^ 53 := by
      have : (2 : ℤ) ^ (k + 1) = 2 * 2 ^ k := by ring
      rw [this]
      constructor <;> linarith
    exact nodeCubes_grid _ (k + 1) t.root _ _ _ hw hb hb hb

/-- C120 case: a tree of size 4 with cells of 1. -/
example : ∃ t, t.resolution = 1 ∧ OctReach (2 ^ (2 : ℤ)) t ∧ Rounded.octCubes toDouble t = t.getCubes := by
  have h := Octree.new_eq (size := 2 ^ (2 : ℤ)) (r := 1) 2 (by norm_num) (by intro j hj; interval_cases j <;> norm_num)
  obtain ⟨k, hg, -⟩ := Octree.good_new (by norm_num) h (by norm_num)
  obtain ⟨t, e1, -, e3, -⟩ := Octree.add_good hg ⟨0.3, -1, 1.7⟩
  have hr : t.resolution = 1 := by rw [e3]; norm_num
  have hreach : OctReach (2 ^ (2 : ℤ)) t := ⟨by norm_num, by rw [hr]; norm_num, 1, _, [.add ⟨0.3, -1, 1.7⟩], by norm_num, h,
    by intro o ho; rw [List.mem_singleton] at ho; subst ho; trivial, by simp only [Octree.run, Octree.step, e1, bind, Except.bind]⟩
  exact ⟨t, hr, hreach, C120_power 2 t hreach 2 (by rw [hr]; norm_num) (by norm_num)⟩

/-- C120, large cells: the tolerance 1e-10 is lost for cells of 2^21 and the cubes are half as wide as the resolution that the tree reports. -/
theorem C120_large : ∃ t0 t, Rounded.octNew toDouble (2 ^ 21) (2 ^ 21) = .ok t0 ∧ t0.getResolution = 2 ^ 21 ∧
    Rounded.octRun toDouble [some ⟨1, 1, 1⟩] t0 = .ok t ∧ t.getResolution = 2 ^ 21 ∧
    Rounded.octCubes toDouble t = [Box.new ⟨0, 0, 0⟩ ⟨2 ^ 20, 2 ^ 20, 2 ^ 20⟩] := by
  have hd : toDouble (2 ^ 21) = 2 ^ 21 := by simpa using toDouble_pow 21
  have hh : toDouble (2 ^ 21 / 2) = 2 ^ 20 := by rw [toDouble_half hd]; norm_num
  have hc : toDouble (2 ^ 20 - toDouble 1e-10) < 2 ^ 21 := by
    have := toDouble_mono (show (2 : ℝ) ^ 20 - toDouble 1e-10 ≤ 2 ^ 20 by linarith [toDouble_tol.1])
    rw [show toDouble (2 ^ 20) = 2 ^ 20 by simpa using toDouble_pow 20] at this
    refine lt_of_le_of_lt this (by norm_num)
  have hp : toDouble (1 - -2 ^ 21 / 2) = 1 + 2 ^ 20 := by
    have := toDouble_grid (m := 1 + 2 ^ 20) (k := 0) (by norm_num)
    norm_num at this ⊢
    exact this
  have h0 : Rounded.octNew toDouble (2 ^ 21) (2 ^ 21) = .ok ⟨2 ^ 21, ⟨-2 ^ 21 / 2, -2 ^ 21 / 2, -2 ^ 21 / 2⟩, ⟨2 ^ 21 / 2, 2 ^ 21 / 2, 2 ^ 21 / 2⟩,
      2 ^ 21, OctNode.new (2 ^ 21), Mesh.new, Shape.new⟩ := by
    rw [Octree.octNew_eq hd, Octree.new_eq 0 (by norm_num) (by simp)]
    norm_num
  have key : ∀ n, Rounded.nodeAdd toDouble (2 ^ 21) (n + 1) (OctNode.new (2 ^ 21)) ⟨1 + 2 ^ 20, 1 + 2 ^ 20, 1 + 2 ^ 20⟩ =
      match n with
      | 0 => .error .hang
      | _ + 1 => .ok (.node (2 ^ 21) false (Function.update (fun _ => .null) 7 (.node (2 ^ 20) true fun _ => .null))) := by
    intro n
    have hx : decide ((1 : ℝ) + 2 ^ 20 > 2 ^ 20) = true := by norm_num
    rw [OctNode.new, Rounded.nodeAdd, leaf_lost, if_neg (lt_irrefl _), hh]
    simp only [hx]
    cases n with
    | zero => rfl
    | succ n =>
      simp only [OctNode.index, OctNode.ensure, OctNode.new]
      rw [Rounded.nodeAdd, if_pos hc]
      rfl
  have hun : unbounded (fun n => Rounded.nodeAdd toDouble (2 ^ 21) n (OctNode.new (2 ^ 21)) ⟨1 + 2 ^ 20, 1 + 2 ^ 20, 1 + 2 ^ 20⟩) =
      .ok (.node (2 ^ 21) false (Function.update (fun _ => .null) 7 (.node (2 ^ 20) true fun _ => .null))) := by
    refine (unbounded_least (m := 2) ?_ ?_).trans (key 1)
    · rw [key 1]; simp
    · intro k hk
      interval_cases k
      · rfl
      · exact key 0
  refine ⟨_, ⟨2 ^ 21, ⟨-2 ^ 21 / 2, -2 ^ 21 / 2, -2 ^ 21 / 2⟩, ⟨2 ^ 21 / 2, 2 ^ 21 / 2, 2 ^ 21 / 2⟩, 2 ^ 21,
    .node (2 ^ 21) false (Function.update (fun _ => .null) 7 (.node (2 ^ 20) true fun _ => .null)), Mesh.new.clear, Shape.new⟩, h0, rfl, ?_, rfl, ?_⟩
  · simp only [Rounded.octRun, Rounded.octAdd, Rounded.sub, hp, hun, bind, Except.bind, pure, Except.pure]
  · have z1 : toDouble (-2 ^ 21 / 2 + 2 ^ 20) = 0 := by norm_num [toDouble_zero]
    have z2 : toDouble (2 ^ 20) = 2 ^ 20 := by simpa using toDouble_pow 20
    simp [Rounded.octCubes, Rounded.nodeCubes, OctNode.octants, OctNode.index, Function.update, hh, Rounded.add, z1, z2]

end Geo
