import Verif.Model.RoundedOctreeRay
import Verif.Lemmas.RoundedOctree
import Verif.Lemmas.Single
import Verif.Lemmas.Tools
import Verif.Lemmas.SingleComposite

/-!
# Helper lemmas for rays through octrees in floating point arithmetic
-/

namespace Geo

namespace OctreeRay

theorem exitDist_id (size : ℝ) (x y z : Bool) (o dir : Vec3) (range : ℝ) :
    Rounded.exitDist id id size x y z o dir range = OctNode.exitDist size x y z o dir range := rfl

theorem nodeRay_id (res : ℝ) : ∀ (n : ℕ) (t : OctNode) (r : Ray) (t0 t1 d : ℝ),
    Rounded.nodeRay id id res n t r t0 t1 d = OctNode.intersectRay res n t r t0 t1 d
  | 0, _, _, _, _, _ => by simp only [Rounded.nodeRay, OctNode.intersectRay]
  | _ + 1, .null, _, _, _, _ => by simp only [Rounded.nodeRay, OctNode.intersectRay]
  | n + 1, .node size occupied children, r, t0, t1, d => by
    unfold Rounded.nodeRay OctNode.intersectRay
    simp only [nodeRay_id res n, exitDist_id]
    rfl

theorem all_octants (x y z : Bool) : (x, y, z) ∈ OctNode.octants := by
  cases x <;> cases y <;> cases z <;> simp [OctNode.octants]

/-- An answer of yes needs a cube. -/
theorem nodeRay_yes (rnd toF : ℝ → ℝ) (res : ℝ) : ∀ (n : ℕ) (t : OctNode) (r : Ray) (t0 t1 d d' : ℝ),
    Rounded.nodeRay rnd toF res n t r t0 t1 d = .ok (true, d') → ∀ o, Rounded.nodeCubes rnd t o ≠ []
  | 0, _, _, _, _, _, _, h => by simp [Rounded.nodeRay] at h
  | _ + 1, .null, _, _, _, _, _, h => by simp [Rounded.nodeRay] at h
  | n + 1, .node size occupied children, r, t0, t1, d, d', h => by
    intro off hoff
    unfold Rounded.nodeRay at h
    simp only at h
    split_ifs at h with h1 h2
    · unfold Rounded.nodeCubes at hoff
      simp [h1] at hoff
    · simp at h
    · split at h
      · cases h
      · rename_i d'' hb
        split at hb
        · simp at hb
        · have hy := nodeRay_yes rnd toF res n _ _ _ _ _ _ hb
          unfold Rounded.nodeCubes at hoff
          rw [if_neg h1, List.flatMap_eq_nil_iff] at hoff
          exact hy _ (hoff (_, _, _) (all_octants _ _ _))
      · exact nodeRay_yes rnd toF res n _ r _ t1 _ d' h off hoff

theorem dbl (m : ℤ) (k : ℕ) (h : |m| ≤ 2 ^ 53) : toDouble (m / 2 ^ k) = m / 2 ^ k := by
  have := toDouble_grid (m := m) (k := -(k : ℤ)) h
  rw [zpow_neg, zpow_natCast, ← div_eq_mul_inv] at this
  exact this

theorem one_plus : toDouble (1 + 1 / 2 ^ 58) = 1 := by
  rw [toDouble_eq (-52) (m := 2 ^ 52) (by norm_num) (by norm_num) (by norm_num [abs_of_pos])]
  norm_num

theorem inv_eps : ¬ |(1 : ℝ) / 2 ^ 29| < toDouble 1e-9 := by
  have := abs_le.1 (toDouble_near 1e-9)
  rw [abs_of_pos (by norm_num : (0 : ℝ) < 1e-9)] at this
  rw [abs_of_pos (by positivity), not_lt]
  norm_num at this ⊢
  linarith [this.2]

theorem inv_one : ¬ |(1 : ℝ)| < toDouble 1e-9 := by
  have := inv_eps
  rw [not_lt] at this ⊢
  refine this.trans ?_
  norm_num

theorem d1 : toDouble 1 = 1 := by simpa using dbl 1 0 (by norm_num)
theorem de : toDouble (1 / 2 ^ 29) = 1 / 2 ^ 29 := by simpa using dbl 1 29 (by norm_num)
theorem dE : toDouble (2 ^ 29) = 2 ^ 29 := by
  have := dbl (2 ^ 29) 0 (by norm_num)
  norm_num at this ⊢
  exact this


theorem length_dir : Rounded.length toDouble ⟨1, 1 / 2 ^ 29, 1 / 2 ^ 29⟩ = 1 := by
  unfold Rounded.length Rounded.length2 Rounded.dot3
  have e : toDouble (1 / 2 ^ 29 * (1 / 2 ^ 29)) = 1 / 2 ^ 58 := by
    have := dbl 1 58 (by norm_num)
    norm_num at this ⊢
    exact this
  simp only [mul_one, e, d1, one_plus, Real.sqrt_one]

theorem length_dir' : Rounded.length toDouble (-⟨1, 1 / 2 ^ 29, 1 / 2 ^ 29⟩) = 1 := by
  have := length_dir
  unfold Rounded.length Rounded.length2 Rounded.dot3 at this ⊢
  simp only [Vec3.neg_x, Vec3.neg_y, Vec3.neg_z, neg_mul_neg]
  exact this

/-- The direction of the witness is kept as it is. -/
theorem ray_dir (o : Vec3) : Rounded.rayNew toDouble o ⟨1, 1 / 2 ^ 29, 1 / 2 ^ 29⟩ =
    { origin := o, direction := ⟨1, 1 / 2 ^ 29, 1 / 2 ^ 29⟩, length := 0, inv := ⟨1, 2 ^ 29, 2 ^ 29⟩, sx := false, sy := false, sz := false } := by
  simp only [Rounded.rayNew, Rounded.normalized, length_dir, div_one, d1, de, Rounded.invComponent, if_neg inv_eps, if_neg inv_one,
    one_div_one_div, dE]
  norm_num

theorem ray_dir' (o : Vec3) : Rounded.rayNew toDouble o (-⟨1, 1 / 2 ^ 29, 1 / 2 ^ 29⟩) =
    { origin := o, direction := ⟨-1, -(1 / 2 ^ 29), -(1 / 2 ^ 29)⟩, length := 0, inv := ⟨-1, -2 ^ 29, -2 ^ 29⟩,
      sx := true, sy := true, sz := true } := by
  have i1 : ¬ |-(1 : ℝ)| < toDouble 1e-9 := by rw [abs_neg]; exact inv_one
  have i2 : ¬ |-((1 : ℝ) / 2 ^ 29)| < toDouble 1e-9 := by rw [abs_neg]; exact inv_eps
  have e1 : (1 : ℝ) / -1 = -1 := by norm_num
  have e2 : (1 : ℝ) / -(1 / 2 ^ 29) = -2 ^ 29 := by norm_num
  simp only [Rounded.rayNew, Rounded.normalized, length_dir', div_one, Vec3.neg_x, Vec3.neg_y, Vec3.neg_z, toDouble_minus d1, toDouble_minus de,
    Rounded.invComponent, if_neg i1, if_neg i2, e1, e2, toDouble_minus dE]
  norm_num

theorem flt (m k : ℤ) {x : ℝ} (h1 : 2 ^ 23 ≤ |m|) (h2 : |m| ≤ 2 ^ 24) (h : x = m * 2 ^ k) : toFloat x = x := by
  rw [h]; exact toFloat_int h1 h2

theorem dbl' (m : ℤ) (k : ℕ) {x : ℝ} (h : |m| ≤ 2 ^ 53) (hx : x = m / 2 ^ k) : toDouble x = x := by
  rw [hx]; exact dbl m k h

/-- Single precision does not tell numbers apart that differ by one at this distance. -/
theorem stays {x : ℝ} (h1 : 2 ^ 25 ≤ x) (h2 : x ≤ 2 ^ 25 + 1) : toFloat (toDouble x) = 2 ^ 25 := by
  obtain ⟨a, b⟩ := toDouble_range (dbl' (2 ^ 25) 0 (by norm_num) (by norm_num)) (dbl' (2 ^ 25 + 1) 0 (by norm_num) (by norm_num)) h1 h2
  rw [toFloat_eq 2 (m := 2 ^ 23) (by norm_num at a ⊢; linarith) (by norm_num at b ⊢; linarith) (by
    rw [abs_lt]; constructor <;> norm_num at a b ⊢ <;> linarith)]
  norm_num

theorem tenth : 0 ≤ toDouble (1 * toDouble 0.1) ∧ toDouble (1 * toDouble 0.1) ≤ 1 / 2 := by
  rw [one_mul, toDouble_idem]
  have := abs_le.1 (toDouble_near 0.1)
  rw [abs_of_pos (by norm_num : (0 : ℝ) < 0.1)] at this
  norm_num at this ⊢
  constructor <;> linarith [this.1, this.2]

/-- Where the ray of the witness leaves the octant. -/
theorem exit_witness (range : ℝ) :
    Rounded.exitDist toDouble toFloat 1 false true true ⟨0, 9 / 16, 9 / 16⟩ ⟨1, 1 / 2 ^ 29, 1 / 2 ^ 29⟩ range = -(1 / 2) := by
  have a1 : toDouble (1 / 2) = 1 / 2 := dbl' 1 1 (by norm_num) (by norm_num)
  have a2 : toDouble (0 + 1 / 2) = 1 / 2 := by rw [zero_add]; exact a1
  have a3 : toDouble (1 / 2 + 1 / 2) = 1 := by rw [show (1 / 2 + 1 / 2 : ℝ) = 1 by norm_num]; exact d1
  have b1 : toDouble (1 / 2 - 0) = 1 / 2 := by rw [sub_zero]; exact a1
  have b2 : toDouble (1 / 2 * -1) = -(1 / 2) := by rw [mul_neg_one]; exact toDouble_minus a1
  have b3 : toFloat (-(1 / 2)) = -(1 / 2) := flt (-2 ^ 23) (-24) (by norm_num) (by norm_num) (by norm_num)
  have b4 : toDouble (0 - 0) = 0 := by rw [sub_zero]; exact toDouble_zero
  have b5 : toDouble (0 * -1) = 0 := by rw [zero_mul]; exact toDouble_zero
  have c1 : toDouble (1 - 9 / 16) = 7 / 16 := by
    rw [show (1 - 9 / 16 : ℝ) = 7 / 16 by norm_num]; exact dbl' 7 4 (by norm_num) (by norm_num)
  have c2 : toDouble (7 / 16 * -2 ^ 29) = -(7 * 2 ^ 25) := by
    rw [show (7 / 16 * -2 ^ 29 : ℝ) = -(7 * 2 ^ 25) by norm_num]; exact dbl' (-(7 * 2 ^ 25)) 0 (by norm_num) (by norm_num)
  have c3 : toFloat (-(7 * 2 ^ 25)) = -(7 * 2 ^ 25) := flt (-(7 * 2 ^ 21)) 4 (by norm_num) (by norm_num) (by norm_num)
  have c4 : toDouble (1 / 2 - 9 / 16) = -(1 / 16) := by
    rw [show (1 / 2 - 9 / 16 : ℝ) = -(1 / 16) by norm_num]; exact dbl' (-1) 4 (by norm_num) (by norm_num)
  have c5 : toDouble (-(1 / 16) * -2 ^ 29) = 2 ^ 25 := by
    rw [show (-(1 / 16) * -2 ^ 29 : ℝ) = 2 ^ 25 by norm_num]; exact dbl' (2 ^ 25) 0 (by norm_num) (by norm_num)
  have c6 : toFloat (2 ^ 25) = 2 ^ 25 := flt (2 ^ 23) 2 (by norm_num) (by norm_num) (by norm_num)
  have m1 : max (-(7 * 2 ^ 25) : ℝ) (-(1 / 2)) = -(1 / 2) := max_eq_right (by norm_num)
  have m2 : min (2 ^ 25 : ℝ) 0 = 0 := min_eq_right (by norm_num)
  unfold Rounded.exitDist
  rw [ray_dir']
  simp only [Rounded.octShift, Rounded.boxRay, Box.bound, Box.new_lo, Box.new_hi, a1, a2, a3, b1, b2, b3, b4, b5, c1, c2, c3, c4, c5, c6, toFloat_zero,
    if_true, Bool.false_eq_true, if_false, Bool.not_true, m1, m2]
  rw [if_neg (by norm_num), if_neg (by norm_num)]

/-- The ray of the witness does not move on. -/
theorem stuck (n : ℕ) (t1 d : ℝ) : Rounded.nodeRay toDouble toFloat 1 n (OctNode.new 1)
    (Rounded.rayNew toDouble ⟨-2 ^ 25, 1 / 2, 1 / 2⟩ ⟨1, 1 / 2 ^ 29, 1 / 2 ^ 29⟩) (2 ^ 25) t1 d = .error .hang := by
  induction n generalizing d with
  | zero => simp only [Rounded.nodeRay]
  | succ n ih =>
    have e1 : toDouble (1 * 2 ^ 25) = 2 ^ 25 := by rw [one_mul]; exact dbl' (2 ^ 25) 0 (by norm_num) (by norm_num)
    have e2 : toDouble (1 / 2 ^ 29 * 2 ^ 25) = 1 / 16 := by
      rw [show (1 / 2 ^ 29 * 2 ^ 25 : ℝ) = 1 / 16 by norm_num]; exact dbl' 1 4 (by norm_num) (by norm_num)
    have e3 : toDouble (-2 ^ 25 + 2 ^ 25) = 0 := by rw [neg_add_cancel]; exact toDouble_zero
    have e4 : toDouble (1 / 2 + 1 / 16) = 9 / 16 := by
      rw [show (1 / 2 + 1 / 16 : ℝ) = 9 / 16 by norm_num]; exact dbl' 9 4 (by norm_num) (by norm_num)
    have e5 : toDouble (1 / 2) = 1 / 2 := dbl' 1 1 (by norm_num) (by norm_num)
    have e6 : toDouble (2 ^ 25 - -(1 / 2)) = 2 ^ 25 + 1 / 2 := by
      rw [sub_neg_eq_add]; exact dbl' (2 ^ 26 + 1) 1 (by norm_num) (by norm_num)
    have e7 : toFloat (toDouble (2 ^ 25 + 1 / 2 + toDouble (1 * toDouble 0.1))) = 2 ^ 25 :=
      stays (by linarith [tenth.1]) (by linarith [tenth.2])
    have x1 : decide ((0 : ℝ) ≥ 1 / 2) = false := by norm_num
    have x2 : decide ((9 / 16 : ℝ) ≥ 1 / 2) = true := by norm_num
    have ho : ¬ OctNode.Outside 1 ⟨0, 9 / 16, 9 / 16⟩ := by norm_num [OctNode.Outside]
    rw [ray_dir] at ih ⊢
    have hadd : Rounded.add toDouble ⟨-2 ^ 25, 1 / 2, 1 / 2⟩ ⟨toDouble (1 * 2 ^ 25), toDouble (1 / 2 ^ 29 * 2 ^ 25), toDouble (1 / 2 ^ 29 * 2 ^ 25)⟩ =
        ⟨0, 9 / 16, 9 / 16⟩ := by
      simp only [Rounded.add, e1, e2, e3, e4]
    have hi : OctNode.new 1 = .node 1 false fun _ => .null := rfl
    rw [hi] at ih ⊢
    simp only [Rounded.nodeRay, hadd, ho, e5, x1, x2, exit_witness, e6, e7, Bool.false_eq_true, if_false]
    exact ih _

/-- The ray of the witness meets the tree. -/
theorem hit_witness :
    Rounded.boxRay toDouble toFloat (Box.new ⟨-1 / 2, -1 / 2, -1 / 2⟩ ⟨1 / 2, 1 / 2, 1 / 2⟩)
      (Rounded.rayNew toDouble ⟨-(2 ^ 25 + 1 / 2), 0, 0⟩ ⟨1, 1 / 2 ^ 29, 1 / 2 ^ 29⟩) 0 (2 ^ 26) 0 = (true, 2 ^ 25) := by
  have a1 : toDouble (1 / 2) = 1 / 2 := dbl' 1 1 (by norm_num) (by norm_num)
  have f25 : toFloat (2 ^ 25) = 2 ^ 25 := flt (2 ^ 23) 2 (by norm_num) (by norm_num) (by norm_num)
  have g25 : toDouble (2 ^ 25) = 2 ^ 25 := dbl' (2 ^ 25) 0 (by norm_num) (by norm_num)
  have x1 : toFloat (toDouble (toDouble (-1 / 2 - -(2 ^ 25 + 1 / 2)) * 1)) = 2 ^ 25 := by
    rw [show (-1 / 2 - -(2 ^ 25 + 1 / 2) : ℝ) = 2 ^ 25 by norm_num, mul_one, g25, g25, f25]
  have x2 : toFloat (toDouble (toDouble (1 / 2 - -(2 ^ 25 + 1 / 2)) * 1)) = 2 ^ 25 := by
    rw [mul_one, toDouble_idem]
    exact stays (by norm_num) (by norm_num)
  have y1 : toFloat (toDouble (toDouble (-1 / 2 - 0) * 2 ^ 29)) = -2 ^ 28 := by
    rw [show (-1 / 2 - 0 : ℝ) = -(1 / 2) by norm_num, toDouble_minus a1, show (-(1 / 2) * 2 ^ 29 : ℝ) = -2 ^ 28 by norm_num,
      dbl' (-2 ^ 28) 0 (by norm_num) (by norm_num)]
    exact flt (-2 ^ 23) 5 (by norm_num) (by norm_num) (by norm_num)
  have y2 : toFloat (toDouble (toDouble (1 / 2 - 0) * 2 ^ 29)) = 2 ^ 28 := by
    rw [sub_zero, a1, show ((1 / 2) * 2 ^ 29 : ℝ) = 2 ^ 28 by norm_num, dbl' (2 ^ 28) 0 (by norm_num) (by norm_num)]
    exact flt (2 ^ 23) 5 (by norm_num) (by norm_num) (by norm_num)
  have m1 : max (-2 ^ 28 : ℝ) (2 ^ 25) = 2 ^ 25 := max_eq_right (by norm_num)
  have m2 : min (2 ^ 28 : ℝ) (2 ^ 25) = 2 ^ 25 := min_eq_right (by norm_num)
  rw [ray_dir]
  simp only [Rounded.boxRay, Box.bound, Box.new_lo, Box.new_hi, x1, x2, y1, y2, if_true, Bool.false_eq_true, if_false, Bool.not_false, m1, m2]
  rw [if_neg (by norm_num), if_neg (by norm_num)]
  norm_num

/-- The root of a tree with one cell is occupied by every addition. -/
theorem add_one (p : Vec3) : (unbounded fun n => Rounded.nodeAdd toDouble 1 n (OctNode.new 1) p) = .ok (.node 1 true fun _ => .null) := by
  have key : toDouble (1 - toDouble 1e-10) < 1 := by
    have h1 := toDouble_tol.1
    have h2 := toDouble_tol.2
    have h := abs_le.1 (toDouble_near (1 - toDouble 1e-10))
    rw [abs_of_pos (by linarith)] at h
    norm_num at h h1 h2 ⊢
    linarith [h.2]
  have hf : ∀ n, Rounded.nodeAdd toDouble 1 (n + 1) (OctNode.new 1) p = .ok (.node 1 true fun _ => .null) := by
    intro n
    unfold OctNode.new Rounded.nodeAdd
    rw [if_pos key]
  refine Tools.unbounded_eq (n := 1) (fun n => ?_) (hf 0)
  cases n with
  | zero => left; simp only [Rounded.nodeAdd]
  | succ n => right; exact hf n

end OctreeRay

end Geo
