import Verif.Lemmas.RoundedOctreeRay
import Verif.Lemmas.RoundedBox

/-!
# Helper lemmas for rays through octrees that come to an end in floating point arithmetic
-/

namespace Geo

open Spec

namespace OctreeRay

theorem double_nonneg {x : ℝ} (h : 0 ≤ x) : 0 ≤ toDouble x := by
  have := toDouble_mono h
  rwa [toDouble_zero] at this

theorem double_nonpos {x : ℝ} (h : x ≤ 0) : toDouble x ≤ 0 := by
  have := toDouble_mono h
  rwa [toDouble_zero] at this

theorem float_nonneg {x : ℝ} (h : 0 ≤ x) : 0 ≤ toFloat x := by
  have := toFloat_mono h
  rwa [toFloat_zero] at this

theorem float_nonpos {x : ℝ} (h : x ≤ 0) : toFloat x ≤ 0 := by
  have := toFloat_mono h
  rwa [toFloat_zero] at this

theorem double_ge {x y : ℝ} (hy : 0 ≤ y) (h : y ≤ x) : y - y / 2 ^ 53 ≤ toDouble x := by
  have a := toDouble_mono h
  have b := (abs_le.1 (toDouble_near y)).1
  rw [abs_of_nonneg hy] at b
  linarith

theorem float_ge {x y : ℝ} (hy : 0 ≤ y) (h : y ≤ x) : y - y / 2 ^ 24 ≤ toFloat x := by
  have a := toFloat_mono h
  have b := (abs_le.1 (toFloat_near y)).1
  rw [abs_of_nonneg hy] at b
  linarith

/-- Near the tree the step is not rounded away. -/
theorem step_far {res t e : ℝ} (hr : 0 < res) (h0 : 0 ≤ t) (h1 : t ≤ 2 ^ 18 * res) (he : e ≤ 0) :
    t + res / 20 ≤ toFloat (toDouble (toDouble (t - e) + toDouble (res * toDouble 0.1))) := by
  have a1 := double_ge h0 (show t ≤ t - e by linarith)
  have a2 : res * (99 / 1000) ≤ res * toDouble 0.1 := by
    have := double_ge (x := 0.1) (by norm_num) le_rfl
    refine mul_le_mul_of_nonneg_left ?_ hr.le
    norm_num at this ⊢
    linarith
  have a3 := double_ge (by positivity) a2
  have a4 : t - t / 2 ^ 53 + (res * (99 / 1000) - res * (99 / 1000) / 2 ^ 53) ≤ toDouble (t - e) + toDouble (res * toDouble 0.1) := by linarith
  have n4 : 0 ≤ t - t / 2 ^ 53 + (res * (99 / 1000) - res * (99 / 1000) / 2 ^ 53) := by
    norm_num
    linarith
  have a5 := double_ge n4 a4
  have n5 : 0 ≤ t - t / 2 ^ 53 + (res * (99 / 1000) - res * (99 / 1000) / 2 ^ 53) -
      (t - t / 2 ^ 53 + (res * (99 / 1000) - res * (99 / 1000) / 2 ^ 53)) / 2 ^ 53 := by
    norm_num at n4 ⊢
    linarith
  have a6 := float_ge n5 a5
  refine le_trans ?_ a6
  norm_num at h1 ⊢
  linarith

/-- One axis of the box test from a point inside, against the signs of the inverse direction. -/
theorem slab_nonpos {lo hi o v : ℝ} (h1 : lo ≤ o) (h2 : o ≤ hi) :
    toFloat (toDouble (toDouble ((if decide (v < 0) = true then hi else lo) - o) * Rounded.invComponent toDouble v)) ≤ 0 := by
  apply float_nonpos
  apply double_nonpos
  by_cases hv : v < 0
  · have i : Rounded.invComponent toDouble v ≤ 0 := by
      unfold Rounded.invComponent
      split_ifs
      · exact le_rfl
      · exact double_nonpos (div_nonpos_of_nonneg_of_nonpos zero_le_one hv.le)
    simp only [hv, decide_true, if_true]
    exact mul_nonpos_of_nonneg_of_nonpos (double_nonneg (by linarith)) i
  · have i : 0 ≤ Rounded.invComponent toDouble v := by
      unfold Rounded.invComponent
      split_ifs
      · exact le_rfl
      · exact double_nonneg (div_nonneg zero_le_one (not_lt.1 hv))
    simp only [hv, decide_false, Bool.false_eq_true, if_false]
    exact mul_nonpos_of_nonpos_of_nonneg (double_nonpos (by linarith)) i

theorem boxRay_second {rnd toF : ℝ → ℝ} {b : Box} {r : Ray} {t0 t1 : ℝ}
    (hx : toF (rnd (rnd ((b.bound r.sx).x - r.origin.x) * r.inv.x)) ≤ 0)
    (hy : toF (rnd (rnd ((b.bound r.sy).y - r.origin.y) * r.inv.y)) ≤ 0)
    (hz : toF (rnd (rnd ((b.bound r.sz).z - r.origin.z) * r.inv.z)) ≤ 0) : (Rounded.boxRay rnd toF b r t0 t1 0).2 ≤ 0 := by
  unfold Rounded.boxRay
  simp only
  split_ifs
  · exact le_rfl
  · exact le_rfl
  · exact max_le hz (max_le hy hx)

/-- Inside a box the entry lies behind. -/
theorem boxRay_nonpos {lo hi o d : Vec3} (h : InBox lo hi o) (range : ℝ) :
    (Rounded.boxRay toDouble toFloat (Box.new lo hi) (Rounded.rayNew toDouble o d) 0 range 0).2 ≤ 0 := by
  obtain ⟨x1, x2, y1, y2, z1, z2⟩ := h
  have hx := slab_nonpos (v := (Rounded.normalized toDouble d).x) x1 x2
  have hy := slab_nonpos (v := (Rounded.normalized toDouble d).y) y1 y2
  have hz := slab_nonpos (v := (Rounded.normalized toDouble d).z) z1 z2
  have bd : ∀ i, (Box.new lo hi).bound i = if i = true then hi else lo := by
    intro i
    unfold Box.bound
    rw [Box.new_lo, Box.new_hi]
  apply boxRay_second
  · simp only [bd, apply_ite Vec3.x, Rounded.rayNew, decide_eq_true_eq] at hx ⊢
    exact hx
  · simp only [bd, apply_ite Vec3.y, Rounded.rayNew, decide_eq_true_eq] at hy ⊢
    exact hy
  · simp only [bd, apply_ite Vec3.z, Rounded.rayNew, decide_eq_true_eq] at hz ⊢
    exact hz

/-- The way out of the octant of a point is behind it. -/
theorem exit_nonpos {size : ℝ} (hs : toDouble size = size) {o : Vec3} (ho : ¬ OctNode.Outside size o) (dir : Vec3) (range : ℝ) (x y z : Bool)
    (hx : x = decide (o.x ≥ size / 2)) (hy : y = decide (o.y ≥ size / 2)) (hz : z = decide (o.z ≥ size / 2)) :
    Rounded.exitDist toDouble toFloat size x y z o dir range ≤ 0 := by
  have hh := toDouble_half hs
  have hc : ∀ (b : Bool) (c : ℝ), 0 ≤ c → c ≤ size → b = decide (c ≥ size / 2) →
      (if b then size / 2 else 0) ≤ c ∧ c ≤ toDouble ((if b then size / 2 else 0) + size / 2) := by
    intro b c h1 h2 hb
    subst hb
    by_cases h : c ≥ size / 2
    · simp only [h, decide_true, if_true]
      exact ⟨trivial, by rw [add_halves, hs]; exact h2⟩
    · simp only [h, decide_false, Bool.false_eq_true, if_false]
      rw [zero_add, hh]
      exact ⟨h1, (not_le.1 h).le⟩
  unfold OctNode.Outside at ho
  push Not at ho
  obtain ⟨a1, a2, a3, a4, a5, a6⟩ := ho
  unfold Rounded.exitDist
  apply boxRay_nonpos
  simp only [Rounded.octShift, hh]
  exact ⟨(hc x _ a1 a4 hx).1, (hc x _ a1 a4 hx).2, (hc y _ a2 a5 hy).1, (hc y _ a2 a5 hy).2, (hc z _ a3 a6 hz).1, (hc z _ a3 a6 hz).2⟩

/-- One component is at least a half. (Device of the proofs.) -/
def Long (v : Vec3) : Prop := 1 / 2 ≤ |v.x| ∨ 1 / 2 ≤ |v.y| ∨ 1 / 2 ≤ |v.z|

theorem long_unit {v : Vec3} (h : v.x ^ 2 + v.y ^ 2 + v.z ^ 2 = 1) : 0.57 ≤ |v.x| ∨ 0.57 ≤ |v.y| ∨ 0.57 ≤ |v.z| := by
  by_contra hc
  push Not at hc
  obtain ⟨a, b, c⟩ := hc
  have k : ∀ x : ℝ, |x| < 0.57 → x ^ 2 ≤ 0.33 := by
    intro x hx
    have := abs_le.1 hx.le
    norm_num at this ⊢
    nlinarith [this.1, this.2]
  have := k _ a
  have := k _ b
  have := k _ c
  norm_num at *
  linarith

/-- Directions are normalised well enough. -/
theorem normalized_long {d e : Vec3} (h : UnitAlong d e) : Long (Rounded.normalized toDouble d) := by
  obtain ⟨hx, hy, hz⟩ := RoundedBox.normalized_err (u := 1 / 2 ^ 53) (rnd := toDouble) (fun x => by have := toDouble_near x; rw [one_div_mul_eq_div]; exact this)
    (by norm_num) h
  have k : ∀ a b : ℝ, |a - b| ≤ 3.6 * (1 / 2 ^ 53) * |b| → 0.57 ≤ |b| → 1 / 2 ≤ |a| := by
    intro a b h1 h2
    have := abs_sub_abs_le_abs_sub b a
    rw [abs_sub_comm] at this
    norm_num at h1 h2 ⊢
    linarith
  rcases long_unit h.1 with a | a | a
  · exact Or.inl (k _ _ hx a)
  · exact Or.inr (Or.inl (k _ _ hy a))
  · exact Or.inr (Or.inr (k _ _ hz a))

theorem long_along {v : Vec3} (h : Long v) : ∃ e, UnitAlong v e := by
  have hp : 0 < v.x ^ 2 + v.y ^ 2 + v.z ^ 2 := by
    rcases h with a | a | a
    · have : v.x ≠ 0 := by rintro e; rw [e] at a; norm_num at a
      positivity
    · have : v.y ≠ 0 := by rintro e; rw [e] at a; norm_num at a
      positivity
    · have : v.z ≠ 0 := by rintro e; rw [e] at a; norm_num at a
      positivity
  obtain ⟨l, hl, h2⟩ : ∃ l : ℝ, 0 < l ∧ l ^ 2 = v.x ^ 2 + v.y ^ 2 + v.z ^ 2 := ⟨_, Real.sqrt_pos.2 hp, Real.sq_sqrt hp.le⟩
  refine ⟨⟨v.x / l, v.y / l, v.z / l⟩, ?_, l, hl, ?_, ?_, ?_⟩
  · simp only [div_pow]
    rw [← add_div, ← add_div, ← h2]
    exact div_self (by positivity)
  all_goals simp only; field_simp

/-- Far along the ray its point is outside of the node, on one axis. -/
theorem axis_out {B s t o v : ℝ} (hs : 0 < s) (hB : |o| ≤ B) (hv : 1 / 2 ≤ |v|) (ht : 4 * (B + s) ≤ t) :
    toDouble (o + toDouble (v * t)) < 0 ∨ s < toDouble (o + toDouble (v * t)) := by
  have hB0 := (abs_nonneg o).trans hB
  obtain ⟨o1, o2⟩ := abs_le.1 hB
  have ht0 : 0 < t := by linarith
  rcases le_abs.1 hv with h | h
  · right
    have a1 : 2 * (B + s) ≤ v * t := by nlinarith
    have a2 := double_ge (by positivity) a1
    have a3 : B + 3 / 2 * s - B / 2 ≤ o + toDouble (v * t) + B / 2 := by
      norm_num at a2 ⊢
      linarith
    have a4 : 3 / 2 * s ≤ o + toDouble (v * t) := by
      norm_num at a2 ⊢
      linarith
    have a5 := double_ge (by positivity) a4
    norm_num at a5 ⊢
    linarith
  · left
    have a1 : 2 * (B + s) ≤ -(v * t) := by nlinarith
    have a2 := (abs_le.1 (toDouble_near (v * t))).2
    rw [abs_of_neg (by linarith)] at a2
    have a4 : o + toDouble (v * t) ≤ -s := by
      norm_num at a1 a2 ⊢
      linarith
    have a5 := toDouble_mono a4
    have a6 := (abs_le.1 (toDouble_near (-s))).2
    rw [abs_neg, abs_of_pos hs] at a6
    norm_num at a6 ⊢
    linarith

theorem ray_out {B s t : ℝ} {r : Ray} (hs : 0 < s) (hB : |r.origin.x| ≤ B ∧ |r.origin.y| ≤ B ∧ |r.origin.z| ≤ B) (hv : Long r.direction)
    (ht : 4 * (B + s) ≤ t) :
    OctNode.Outside s (Rounded.add toDouble r.origin ⟨toDouble (r.direction.x * t), toDouble (r.direction.y * t), toDouble (r.direction.z * t)⟩) := by
  unfold OctNode.Outside Rounded.add
  simp only
  rcases hv with h | h | h
  · rcases axis_out hs hB.1 h ht with h | h <;> tauto
  · rcases axis_out hs hB.2.1 h ht with h | h <;> tauto
  · rcases axis_out hs hB.2.2 h ht with h | h <;> tauto

/-- The search comes to an end in a node if it does so in the children. -/
theorem node_ends {res s B t1 : ℝ} {occ : Bool} {ch : Fin 8 → OctNode} {r : Ray} (hr : 0 < res) (hs : 0 < s) (hd : toDouble s = s)
    (hB : |r.origin.x| ≤ B ∧ |r.origin.y| ≤ B ∧ |r.origin.z| ≤ B) (hv : Long r.direction) (hT : 4 * (B + s) ≤ 2 ^ 18 * res)
    (hch : ∀ x y z t0, 0 ≤ t0 → ch (OctNode.index x y z) ≠ .null → ∃ n0, ∀ n, n0 ≤ n → ∀ d, ∃ b d', Rounded.nodeRay toDouble toFloat res n
      (ch (OctNode.index x y z)) (Rounded.rayNew toDouble (Rounded.sub toDouble r.origin (Rounded.octShift toDouble s x y z)) r.direction) t0 t1 d =
        .ok (b, d')) : ∀ (m : ℕ) (t0 : ℝ), 0 ≤ t0 → 2 ^ 18 * res - t0 ≤ m * (res / 20) →
    ∃ n0, ∀ n, n0 ≤ n → ∀ d, ∃ b d', Rounded.nodeRay toDouble toFloat res n (.node s occ ch) r t0 t1 d = .ok (b, d') := by
  have quit : ∀ t0, OctNode.Outside s (Rounded.add toDouble r.origin
      ⟨toDouble (r.direction.x * t0), toDouble (r.direction.y * t0), toDouble (r.direction.z * t0)⟩) →
      ∃ n0, ∀ n, n0 ≤ n → ∀ d, ∃ b d', Rounded.nodeRay toDouble toFloat res n (.node s occ ch) r t0 t1 d = .ok (b, d') := by
    intro t0 ho
    refine ⟨1, fun n hn d => ?_⟩
    obtain ⟨n, rfl⟩ : ∃ k, n = k + 1 := ⟨n - 1, by omega⟩
    unfold Rounded.nodeRay
    by_cases h : occ = true
    · exact ⟨_, _, by rw [if_pos h]⟩
    · exact ⟨_, _, by rw [if_neg h]; simp only; rw [if_pos ho]⟩
  intro m
  induction m with
  | zero =>
    intro t0 h0 h
    exact quit t0 (ray_out hs hB hv (by norm_num at h ⊢; linarith))
  | succ m ih =>
    intro t0 h0 h
    by_cases ho : OctNode.Outside s (Rounded.add toDouble r.origin
        ⟨toDouble (r.direction.x * t0), toDouble (r.direction.y * t0), toDouble (r.direction.z * t0)⟩)
    · exact quit t0 ho
    have ht : t0 ≤ 2 ^ 18 * res := by
      by_contra hc
      exact ho (ray_out hs hB hv (by linarith))
    obtain ⟨o, ho'⟩ : ∃ o, o = Rounded.add toDouble r.origin
        ⟨toDouble (r.direction.x * t0), toDouble (r.direction.y * t0), toDouble (r.direction.z * t0)⟩ := ⟨_, rfl⟩
    rw [← ho'] at ho
    classical
    obtain ⟨x, hx⟩ : ∃ x, x = decide (o.x ≥ s / 2) := ⟨_, rfl⟩
    obtain ⟨y, hy⟩ : ∃ y, y = decide (o.y ≥ s / 2) := ⟨_, rfl⟩
    obtain ⟨z, hz⟩ : ∃ z, z = decide (o.z ≥ s / 2) := ⟨_, rfl⟩
    have he := exit_nonpos hd ho r.direction (toFloat (t1 - t0)) x y z hx hy hz
    obtain ⟨e, hee⟩ : ∃ e, e = Rounded.exitDist toDouble toFloat s x y z o r.direction (toFloat (t1 - t0)) := ⟨_, rfl⟩
    rw [← hee] at he
    have hstep := step_far hr h0 ht he
    obtain ⟨n2, h2⟩ := ih _ (by linarith) (show 2 ^ 18 * res - toFloat (toDouble (toDouble (t0 - e) + toDouble (res * toDouble 0.1))) ≤ m * (res / 20) by
      push_cast at h
      linarith)
    have hbelow : ∃ n1, ch (OctNode.index x y z) ≠ .null → ∀ n, n1 ≤ n → ∀ d, ∃ b d', Rounded.nodeRay toDouble toFloat res n
        (ch (OctNode.index x y z)) (Rounded.rayNew toDouble (Rounded.sub toDouble r.origin (Rounded.octShift toDouble s x y z)) r.direction) t0 t1 d =
          .ok (b, d') := by
      by_cases hc : ch (OctNode.index x y z) = .null
      · exact ⟨0, fun h => absurd hc h⟩
      · obtain ⟨n1, h1⟩ := hch x y z t0 h0 hc
        exact ⟨n1, fun _ => h1⟩
    obtain ⟨n1, h1⟩ := hbelow
    refine ⟨max n1 n2 + 1, fun n hn d => ?_⟩
    obtain ⟨n, rfl⟩ : ∃ k, n = k + 1 := ⟨n - 1, by omega⟩
    unfold Rounded.nodeRay
    by_cases hocc : occ = true
    · exact ⟨_, _, by rw [if_pos hocc]⟩
    rw [if_neg hocc]
    simp only [← ho', toDouble_half hd]
    rw [if_neg ho]
    simp only [← hx, ← hy, ← hz, ← hee]
    cases hc : ch (OctNode.index x y z) with
    | null => exact h2 n (by omega) _
    | node a1 a2 a3 =>
      rw [hc] at h1
      obtain ⟨b, d1, hb⟩ := h1 (by simp) n (by omega) d
      simp only [hb]
      cases b with
      | true => exact ⟨_, _, rfl⟩
      | false => exact h2 n (by omega) _

/-- The search comes to an end. -/
theorem nodeRay_ends {res t1 : ℝ} (hr : 0 < res) : ∀ (k : ℕ) (s B t0 : ℝ) (c : OctNode) (r : Ray), OctNode.WF k s c → c ≠ .null → 0 < s → toDouble s = s →
    |r.origin.x| ≤ B ∧ |r.origin.y| ≤ B ∧ |r.origin.z| ≤ B → Long r.direction → 4 * (B + s) * (1 + k / 2 ^ 52) ≤ 2 ^ 18 * res → (k : ℝ) ≤ 2 ^ 52 →
    0 ≤ t0 → ∃ n0, ∀ n, n0 ≤ n → ∀ d, ∃ b d', Rounded.nodeRay toDouble toFloat res n c r t0 t1 d = .ok (b, d') := by
  intro k
  induction k with
  | zero =>
    intro s B t0 c r hw hc hs hd hB hv hT _ h0
    cases c with
    | null => exact absurd rfl hc
    | node s' occ ch =>
      obtain ⟨rfl, hn⟩ := hw
      obtain ⟨m, hm⟩ := exists_nat_ge ((2 ^ 18 * res - t0) / (res / 20))
      rw [div_le_iff₀ (by positivity)] at hm
      exact node_ends hr hs hd hB hv (by simpa using hT) (fun x y z _ _ h => absurd (hn _) h) m t0 h0 hm
  | succ k ih =>
    intro s B t0 c r hw hc hs hd hB hv hT hk h0
    cases c with
    | null => exact absurd rfl hc
    | node s' occ ch =>
      obtain ⟨rfl, -, hn⟩ := hw
      have hB0 := (abs_nonneg _).trans hB.1
      push_cast at hT hk
      have hk0 : (0 : ℝ) ≤ k := Nat.cast_nonneg k
      have q0 : 0 ≤ (k : ℝ) / 2 ^ 52 := by positivity
      have q1 : (k : ℝ) / 2 ^ 52 ≤ 1 := by rw [div_le_one (by positivity)]; linarith
      rw [add_div] at hT
      obtain ⟨q, hq⟩ : ∃ q, q = (k : ℝ) / 2 ^ 52 := ⟨_, rfl⟩
      obtain ⟨m, hm⟩ := exists_nat_ge ((2 ^ 18 * res - t0) / (res / 20))
      rw [div_le_iff₀ (by positivity)] at hm
      refine node_ends hr hs hd hB hv ?_ (fun x y z t h h' => ?_) m t0 h0 hm
      · refine le_trans ?_ hT
        refine le_mul_of_one_le_right (by positivity) ?_
        have : (0 : ℝ) ≤ 1 / 2 ^ 52 := by positivity
        linarith
      · have hb : ∀ (o : ℝ) (b : Bool), |o| ≤ B → |toDouble (o - if b then toDouble (s' / 2) else 0)| ≤ (B + s' / 2) * (1 + 1 / 2 ^ 53) := by
          intro o b ho
          have a1 : |o - if b then toDouble (s' / 2) else 0| ≤ B + s' / 2 := by
            obtain ⟨o1, o2⟩ := abs_le.1 ho
            rw [toDouble_half hd]
            cases b
            · simp only [Bool.false_eq_true, if_false, sub_zero]
              linarith
            · simp only [if_true]
              exact abs_le.2 ⟨by linarith, by linarith⟩
          have a2 := toDouble_near (o - if b then toDouble (s' / 2) else 0)
          have a3 := abs_sub_abs_le_abs_sub (toDouble (o - if b then toDouble (s' / 2) else 0)) (o - if b then toDouble (s' / 2) else 0)
          norm_num at a1 a2 a3 ⊢
          linarith
        obtain ⟨e, he⟩ := long_along hv
        refine ih (s' / 2) ((B + s' / 2) * (1 + 1 / 2 ^ 53)) t _ _ (hn _) h' (by positivity) (toDouble_half hd)
          ⟨hb _ x hB.1, hb _ y hB.2.1, hb _ z hB.2.2⟩ (normalized_long he) ?_ (by linarith) h
        refine le_trans ?_ hT
        rw [← hq] at q0 q1 ⊢
        have g1 : (B + s' / 2) * (1 + 1 / 2 ^ 53) + s' / 2 ≤ (B + s') * (1 + 1 / 2 ^ 53) := by
          norm_num
          linarith
        have g2 : (1 + 1 / 2 ^ 53) * (1 + q) ≤ 1 + (q + 1 / 2 ^ 52) := by
          norm_num
          linarith
        calc 4 * ((B + s' / 2) * (1 + 1 / 2 ^ 53) + s' / 2) * (1 + q) ≤ 4 * ((B + s') * (1 + 1 / 2 ^ 53)) * (1 + q) :=
              mul_le_mul_of_nonneg_right (by linarith) (by linarith)
          _ = 4 * (B + s') * ((1 + 1 / 2 ^ 53) * (1 + q)) := by ring
          _ ≤ 4 * (B + s') * (1 + (q + 1 / 2 ^ 52)) := mul_le_mul_of_nonneg_left g2 (by positivity)

/-- The only fault of the search is that it does not end. -/
theorem nodeRay_safe (rnd toF : ℝ → ℝ) (res : ℝ) : ∀ (n : ℕ) (c : OctNode) (r : Ray) (t0 t1 d : ℝ) (e : Fault), c ≠ .null →
    Rounded.nodeRay rnd toF res n c r t0 t1 d = .error e → e = .hang := by
  intro n
  induction n with
  | zero =>
    intro c r t0 t1 d e _ h
    simp only [Rounded.nodeRay, Except.error.injEq] at h
    exact h.symm
  | succ n ih =>
    intro c r t0 t1 d e hc h
    cases c with
    | null => exact absurd rfl hc
    | node s occ ch =>
      unfold Rounded.nodeRay at h
      simp only at h
      split_ifs at h
      split at h
      · rename_i e' he
        cases h
        split at he
        · cases he
        · rename_i hn
          exact ih _ _ _ _ _ _ (fun h => hn h) he
      · cases h
      · exact ih _ _ _ _ _ _ (by simp) h

open Classical in
/-- A loop with fuel without faults that ends. -/
theorem unbounded_safe {α : Type} {f : ℕ → Exec α} (h : ∀ n e, f n = .error e → e = .hang) {n : ℕ} {a : α} (hn : f n = .ok a) :
    ∃ v, unbounded f = .ok v := by
  have hex : ∃ n, f n ≠ .error .hang := ⟨n, by rw [hn]; simp⟩
  have hf := Nat.find_spec hex
  unfold unbounded
  rw [dif_pos hex]
  cases hc : f (Nat.find hex) with
  | error e => exact absurd (by rw [hc, h _ e hc]) hf
  | ok v => exact ⟨v, rfl⟩

/-- Every query of a tree near enough to the ray comes to an end. -/
theorem octRay_ends {k : ℕ} {size : ℝ} {t : Octree} (h : Octree.Good k size t) (hs : toDouble size = size) {o d e : Vec3} (he : UnitAlong d e) {B : ℝ}
    (hB : |o.x| ≤ B ∧ |o.y| ≤ B ∧ |o.z| ≤ B) (hT : B + 2 * size ≤ 2 ^ 15 * t.resolution) {t0 : ℝ} (h0 : 0 ≤ t0) (t1 d0 : ℝ) :
    ∃ b d', Rounded.octRay toDouble toFloat t (Rounded.rayNew toDouble o d) t0 t1 d0 = .ok (b, d') := by
  have hr := h.pos
  have hp := h.size_pos
  have hB0 := (abs_nonneg _).trans hB.1
  have hk : (2 : ℝ) ^ k ≤ 2 ^ 15 := by
    have := h.res
    refine le_of_mul_le_mul_left ?_ hr
    linarith
  have hk' : k ≤ 15 := (pow_le_pow_iff_right₀ (by norm_num : (1 : ℝ) < 2)).1 hk
  have hk'' : (k : ℝ) ≤ 15 := by exact_mod_cast hk'
  have hb : ∀ c : ℝ, |c| ≤ B → |toDouble (c - -size / 2)| ≤ B + size := by
    intro c hc
    obtain ⟨c1, c2⟩ := abs_le.1 hc
    have a1 : |c - -size / 2| ≤ B + size / 2 := abs_le.2 ⟨by linarith, by linarith⟩
    have a2 := toDouble_near (c - -size / 2)
    have a3 := abs_sub_abs_le_abs_sub (toDouble (c - -size / 2)) (c - -size / 2)
    have hkk : B ≤ 2 ^ 15 * size := by
      have : t.resolution ≤ size := by
        rw [← h.res]
        exact le_mul_of_one_le_right hr.le (one_le_pow₀ (by norm_num))
      norm_num at hT ⊢
      linarith
    norm_num at a1 a2 a3 hkk ⊢
    linarith
  unfold Rounded.octRay
  simp only
  split_ifs
  · exact ⟨_, _, rfl⟩
  · have hn := nodeRay_ends (res := t.resolution) (t1 := t1) hr k size (B + size)
      (toFloat (toDouble (toDouble (t0 + max (Rounded.boxRay toDouble toFloat (Box.new t.offset t.max) (Rounded.rayNew toDouble o d) t0 t1 0).2 0) +
        toDouble (t.resolution * toDouble 0.1)))) t.root
      (Rounded.rayNew toDouble (Rounded.sub toDouble o t.offset) (Rounded.rayNew toDouble o d).direction) h.wf h.root hp hs
      (by rw [h.off]; exact ⟨hb _ hB.1, hb _ hB.2.1, hb _ hB.2.2⟩)
      (by obtain ⟨f, hf⟩ := long_along (normalized_long he); exact normalized_long hf)
      (by
        have : 4 * (B + size + size) * (1 + k / 2 ^ 52) ≤ 4 * (B + size + size) * 2 := by
          refine mul_le_mul_of_nonneg_left ?_ (by positivity)
          norm_num
          linarith
        norm_num at this hT ⊢
        linarith)
      (by norm_num; linarith)
      (by
        refine float_nonneg (double_nonneg (add_nonneg (double_nonneg (add_nonneg h0 (le_max_right _ _))) (double_nonneg (mul_nonneg hr.le ?_))))
        exact double_nonneg (by norm_num))
    obtain ⟨n0, hn0⟩ := hn
    obtain ⟨b, d', hh⟩ := hn0 n0 le_rfl d0
    obtain ⟨v, hv⟩ := unbounded_safe (fun n e he => nodeRay_safe _ _ _ n _ _ _ _ _ e h.root he) hh
    exact ⟨v.1, v.2, hv⟩

end OctreeRay

end Geo
