import Verif.Model.SingleComposite
import Verif.Lemmas.Single
import Verif.Lemmas.Composite

/-!
# The ray query of composites in single precision
-/

namespace Geo
open Spec

/-! ## Rounding twice -/

theorem log_eq {x : ℝ} {k : ℤ} (h1 : (2 : ℝ) ^ k ≤ x) (h2 : x < 2 ^ (k + 1)) : Int.log 2 x = k := by
  have hx : 0 < x := lt_of_lt_of_le (zpow_pos (by norm_num) _) h1
  have a := (Int.zpow_le_iff_le_log (b := 2) one_lt_two hx).1 (by exact_mod_cast h1)
  have b := (Int.lt_zpow_iff_log_lt (b := 2) one_lt_two hx).1 (by exact_mod_cast h2)
  omega

theorem toFloat_int {m k : ℤ} (h1 : 2 ^ 23 ≤ |m|) (h2 : |m| ≤ 2 ^ 24) : toFloat (m * 2 ^ k) = m * 2 ^ k := by
  have hk : (0 : ℝ) < 2 ^ k := zpow_pos (by norm_num) _
  have two : (2 : ℝ) ≠ 0 := by norm_num
  have hm : (m : ℝ) ≠ 0 := by
    intro h
    have : m = 0 := by exact_mod_cast h
    subst this
    norm_num at h1
  have habs : |(m : ℝ) * 2 ^ k| = (|m| : ℤ) * 2 ^ k := by rw [abs_mul, abs_of_pos hk, Int.cast_abs]
  have g1 : ((2 ^ 23 : ℤ) : ℝ) ≤ (|m| : ℤ) := by exact_mod_cast h1
  push_cast at g1
  unfold toFloat
  rw [if_neg (mul_ne_zero hm hk.ne')]
  dsimp only
  rw [habs]
  rcases h2.lt_or_eq with h2 | h2
  · have g2 : ((|m| : ℤ) : ℝ) < ((2 ^ 24 : ℤ) : ℝ) := by exact_mod_cast h2
    push_cast at g2
    have : Int.log 2 (((|m| : ℤ) : ℝ) * 2 ^ k) = k + 23 := by
      apply log_eq
      · rw [zpow_add₀ two, mul_comm]
        refine mul_le_mul_of_nonneg_right ?_ hk.le
        norm_num at g1 ⊢
        exact g1
      · rw [show k + 23 + 1 = k + 24 by ring, zpow_add₀ two, mul_comm]
        refine mul_lt_mul_of_pos_left ?_ hk
        norm_num at g2 ⊢
        exact g2
    rw [this, show k + 23 - 23 = k by ring, mul_div_assoc, div_self hk.ne', mul_one, nearestEven_int]
  · have : Int.log 2 (((|m| : ℤ) : ℝ) * 2 ^ k) = k + 24 := by
      rw [h2]
      apply log_eq
      · rw [zpow_add₀ two, mul_comm]
        push_cast
        norm_num
      · rw [show k + 24 + 1 = k + 25 by ring, zpow_add₀ two]
        push_cast
        rw [mul_comm]
        exact mul_lt_mul_of_pos_left (by norm_num) hk
    rw [this, show k + 24 - 23 = k + 1 by ring, zpow_add₀ two, zpow_one]
    have e : (m : ℝ) * 2 ^ k / (2 ^ k * 2) = ((m / 2 : ℤ) : ℝ) := by
      have hd : (2 : ℤ) ∣ m := by
        rw [← dvd_abs, h2]
        norm_num
      obtain ⟨n, rfl⟩ := hd
      rw [Int.mul_ediv_cancel_left _ (by norm_num)]
      push_cast
      field_simp
    rw [e, nearestEven_int, ← e]
    field_simp

/-- Rounding a `float` does not change it. -/
theorem toFloat_idem (x : ℝ) : toFloat (toFloat x) = toFloat x := by
  by_cases hx : x = 0
  · subst hx
    rw [toFloat_zero, toFloat_zero]
  have habs : 0 < |x| := abs_pos.2 hx
  set e := Int.log 2 |x| - 23 with he
  have hp : (0 : ℝ) < 2 ^ e := zpow_pos (by norm_num) _
  have l1 : (2 : ℝ) ^ (e + 23) ≤ |x| := by
    have := Int.zpow_log_le_self (b := 2) one_lt_two habs
    rw [show e + 23 = Int.log 2 |x| by omega]
    exact_mod_cast this
  have l2 : |x| < (2 : ℝ) ^ (e + 24) := by
    have := Int.lt_zpow_succ_log_self (b := 2) one_lt_two |x|
    rw [show e + 24 = Int.log 2 |x| + 1 by omega]
    exact_mod_cast this
  have two : (2 : ℝ) ≠ 0 := by norm_num
  have q1 : (2 : ℝ) ^ 23 ≤ |x / 2 ^ e| := by
    rw [abs_div, abs_of_pos hp, le_div_iff₀ hp, mul_comm]
    rw [zpow_add₀ two] at l1
    exact_mod_cast l1
  have q2 : |x / 2 ^ e| ≤ (2 : ℝ) ^ 24 := by
    rw [abs_div, abs_of_pos hp, div_le_iff₀ hp, mul_comm]
    rw [zpow_add₀ two] at l2
    exact_mod_cast l2.le
  have hfx : toFloat x = nearestEven (x / 2 ^ e) * 2 ^ e := by
    unfold toFloat
    rw [if_neg hx]
  rw [hfx]
  generalize x / 2 ^ e = q at q1 q2
  have n1 := nearestEven_int (2 ^ 23)
  have n2 := nearestEven_int (2 ^ 24)
  have n3 := nearestEven_int (-2 ^ 23)
  have n4 := nearestEven_int (-2 ^ 24)
  push_cast at n1 n2 n3 n4
  apply toFloat_int
  · rcases le_abs.1 q1 with h | h
    · have := nearestEven_mono h
      norm_num [n1] at this ⊢
      exact this.trans (le_abs_self _)
    · have := nearestEven_mono (show q ≤ -2 ^ 23 by linarith)
      norm_num [n3] at this ⊢
      exact le_trans (by omega) (neg_le_abs _)
  · rw [abs_le] at q2 ⊢
    have a := nearestEven_mono q2.1
    have b := nearestEven_mono q2.2
    norm_num [n4] at a
    norm_num [n2] at b
    exact ⟨by norm_num; exact a, by norm_num; exact b⟩

theorem toFloat_six : toFloat 6 = 6 := by
  have := toFloat_int (m := 6 * 2 ^ 21) (k := -21) (by norm_num [abs_of_pos]) (by norm_num [abs_of_pos])
  norm_num at this
  exact this

theorem toFloat_eight : toFloat 8 = 8 := by
  have := toFloat_int (m := 2 ^ 23) (k := -20) (by norm_num) (by norm_num)
  norm_num at this
  exact this

/-! ## The loop -/

theorem box_candidateF (rnd : ℝ → ℝ) (b : Box) (r : Ray) (t0 : ℝ) : ∃ e, Candidate (b.toObjF rnd) r t0 e := by
  unfold Candidate Box.toObjF Box.intersectRayF
  simp only
  generalize rnd (((b.bound r.sx).x - r.origin.x) * r.inv.x) = a1
  generalize rnd (((b.bound (!r.sx)).x - r.origin.x) * r.inv.x) = a2
  generalize rnd (((b.bound r.sy).y - r.origin.y) * r.inv.y) = b1
  generalize rnd (((b.bound (!r.sy)).y - r.origin.y) * r.inv.y) = b2
  generalize rnd (((b.bound r.sz).z - r.origin.z) * r.inv.z) = c1
  generalize rnd (((b.bound (!r.sz)).z - r.origin.z) * r.inv.z) = c2
  by_cases h1 : a1 > b2 ∨ b1 > a2
  · exact ⟨none, fun t1 d0 => ⟨_, rfl, by simp [h1], by simp [h1]⟩⟩
  by_cases h2 : max b1 a1 > c2 ∨ c1 > min b2 a2
  · exact ⟨none, fun t1 d0 => ⟨_, rfl, by simp only [h1, h2, if_true, if_false]; simp, by simp only [h1, h2, if_true, if_false]; simp⟩⟩
  by_cases h3 : t0 < min c2 (min b2 a2)
  · refine ⟨some (max c1 (max b1 a1)), fun t1 d0 => ⟨_, rfl, ?_, ?_⟩⟩
    · simp only [h1, h2, h3, if_false, true_and, decide_eq_true_eq, Option.some.injEq, exists_eq_left']
    · simp only [h1, h2, if_false]; simp
  · refine ⟨none, fun t1 d0 => ⟨_, rfl, ?_, ?_⟩⟩
    · simp only [h1, h2, h3, if_false, false_and, decide_eq_true_eq]; simp
    · simp only [h1, h2, h3, if_false, false_and]; simp

theorem max_float {x y : ℝ} (hx : toFloat x = x) (hy : toFloat y = y) : toFloat (max x y) = max x y := by
  rcases max_choice x y with h | h <;> rw [h] <;> assumption

/-- The distance of a box that is hit is a `float`. -/
theorem boxF_float (b : Box) (r : Ray) (t0 t1 : ℝ) {d0 : ℝ} (h : (b.intersectRayF toFloat r t0 t1 d0).1 = true) :
    toFloat (b.intersectRayF toFloat r t0 t1 d0).2 = (b.intersectRayF toFloat r t0 t1 d0).2 := by
  unfold Box.intersectRayF at h ⊢
  simp only at h ⊢
  split_ifs at h ⊢
  exact max_float (toFloat_idem _) (max_float (toFloat_idem _) (toFloat_idem _))

/-- The parameters at which an oblique line is in a box, if any, have a least and a greatest element. -/
theorem box_span {lo hi o u : Vec3} {t : ℝ} (hob : Oblique u) (ht : InBox lo hi (along o u t)) :
    ∃ a b, IsLeast {s | InBox lo hi (along o u s)} a ∧ IsGreatest {s | InBox lo hi (along o u s)} b := by
  obtain ⟨ox, oy, oz⟩ := hob
  have hmem : ∀ s, InBox lo hi (along o u s) ↔
      max (slabLo lo.z hi.z o.z u.z) (max (slabLo lo.y hi.y o.y u.y) (slabLo lo.x hi.x o.x u.x)) ≤ s ∧
      s ≤ min (slabHi lo.z hi.z o.z u.z) (min (slabHi lo.y hi.y o.y u.y) (slabHi lo.x hi.x o.x u.x)) := by
    intro s
    have x := slab_mem (lo := lo.x) (hi := hi.x) (o := o.x) (t := s) ox
    have y := slab_mem (lo := lo.y) (hi := hi.y) (o := o.y) (t := s) oy
    have z := slab_mem (lo := lo.z) (hi := hi.z) (o := o.z) (t := s) oz
    simp only [InBox, along, max_le_iff, le_min_iff]
    constructor
    · rintro ⟨x1, x2, y1, y2, z1, z2⟩
      have x := x.2 ⟨x1, x2⟩
      have y := y.2 ⟨y1, y2⟩
      have z := z.2 ⟨z1, z2⟩
      exact ⟨⟨z.1, y.1, x.1⟩, z.2, y.2, x.2⟩
    · rintro ⟨⟨z1, y1, x1⟩, z2, y2, x2⟩
      have x := x.1 ⟨x1, x2⟩
      have y := y.1 ⟨y1, y2⟩
      have z := z.1 ⟨z1, z2⟩
      exact ⟨x.1, x.2, y.1, y.2, z.1, z.2⟩
  have h := (hmem t).1 ht
  exact ⟨_, _, ⟨(hmem _).2 ⟨le_rfl, h.1.trans h.2⟩, fun s hs => ((hmem s).1 hs).1⟩,
    ⟨(hmem _).2 ⟨h.1.trans h.2, le_rfl⟩, fun s hs => ((hmem s).1 hs).2⟩⟩

namespace Composite

theorem rayLoopF_map {rnd : ℝ → ℝ} (mono : Monotone rnd) (idem : ∀ x, rnd (rnd x) = rnd x) (r : Ray) (t0 : ℝ)
    (l : List (ShapeObj × Transform3)) (E : ShapeObj × Transform3 → Option ℝ)
    (hE : ∀ x ∈ l, Candidate x.1 (Ray.new (x.2.inverse.apply r.origin) (x.2.inverse.R.mulVec r.direction)) t0 (E x))
    (hit : Bool) (md : ℝ) :
    ∃ res, rayLoopF rnd r t0 (l.map fun x => (x.1, x.2.inverse)) hit md = .ok res ∧
      (res.1 = true ↔ hit = true ∨ ∃ x ∈ l, ∃ d, E x = some d ∧ d < rnd md) ∧
      rnd res.2 ≤ rnd md ∧ (∀ x ∈ l, ∀ d, E x = some d → rnd res.2 ≤ rnd d) ∧
      (res.2 = md ∨ res.2 < rnd md ∧ ∃ x ∈ l, E x = some res.2) ∧
      (res.1 = true → hit = false → res.2 < rnd md ∧ ∃ x ∈ l, E x = some res.2) := by
  induction l generalizing hit md with
  | nil => exact ⟨(hit, md), rfl, by simp, le_rfl, by simp, by simp, by simp +contextual⟩
  | cons x l ih =>
    obtain ⟨⟨h, d⟩, h1, h2, h3⟩ := hE x (by simp) (rnd md) 0
    have hl := fun y hy => hE y (List.mem_cons_of_mem x hy)
    cases hh : h with
    | true =>
      subst hh
      obtain ⟨y, hy1, hy2⟩ := h2.1 rfl
      have hd : E x = some d := h3 rfl
      have : y = d := by rw [hy1] at hd; simpa using hd
      subst this
      have hry : rnd y ≤ rnd md := by rw [← idem md]; exact mono hy2.le
      obtain ⟨res, g1, g2, g3, g4, g5, g6⟩ := ih hl true y
      have hin : res.2 < rnd md ∧ ∃ z ∈ x :: l, E z = some res.2 := by
        rcases g5 with g5 | ⟨g, z, hz, g5⟩
        · exact ⟨by rw [g5]; exact hy2, x, by simp, by rw [g5]; exact hd⟩
        · exact ⟨g.trans_le hry, z, by simp [hz], g5⟩
      refine ⟨res, ?_, ?_, g3.trans hry, ?_, .inr hin, fun _ _ => hin⟩
      · simp [rayLoopF, h1, bind, Except.bind, g1]
      · rw [g2]
        exact ⟨fun _ => Or.inr ⟨x, by simp, y, hd, hy2⟩, fun _ => Or.inl rfl⟩
      · intro z hz d' hd'
        rcases List.mem_cons.1 hz with rfl | hz
        · rw [hd] at hd'; simp only [Option.some.injEq] at hd'; rw [← hd']; exact g3
        · exact g4 z hz d' hd'
    | false =>
      subst hh
      have hno : ∀ y, E x = some y → rnd md ≤ y := by
        intro y hy
        by_contra hc
        have := h2.2 ⟨y, hy, not_le.1 hc⟩
        simp at this
      obtain ⟨res, g1, g2, g3, g4, g5, g6⟩ := ih hl hit md
      refine ⟨res, ?_, ?_, g3, ?_, ?_, ?_⟩
      · simp [rayLoopF, h1, bind, Except.bind, g1]
      · rw [g2]
        constructor
        · rintro (h | ⟨z, hz, d', h, h'⟩)
          · exact .inl h
          · exact .inr ⟨z, by simp [hz], d', h, h'⟩
        · rintro (h | ⟨z, hz, d', h, h'⟩)
          · exact .inl h
          · rcases List.mem_cons.1 hz with rfl | hz
            · exact absurd h' (not_lt.2 (hno d' h))
            · exact .inr ⟨z, hz, d', h, h'⟩
      · intro z hz d' hd'
        rcases List.mem_cons.1 hz with rfl | hz
        · refine g3.trans ?_
          rw [← idem md]
          exact mono (hno d' hd')
        · exact g4 z hz d' hd'
      · exact g5.imp id fun ⟨g, z, hz, h⟩ => ⟨g, z, by simp [hz], h⟩
      · intro a b
        obtain ⟨p, z, hz, q⟩ := g6 a b
        exact ⟨p, z, by simp [hz], q⟩

/-- Without rounding, the loop is that of `Model/Composite`. -/
theorem rayLoopF_id (r : Ray) (t0 : ℝ) (l : List (ShapeObj × Transform3)) (hit : Bool) (md : ℝ) :
    rayLoopF (fun x => x) r t0 l hit md = rayLoop r t0 l hit md := by
  induction l generalizing hit md with
  | nil => rfl
  | cons x l ih =>
    unfold rayLoopF rayLoop
    simp only [ih]

/-- Without rounding, the query is that of `Model/Composite`. -/
theorem intersectRayF_id (c : Composite) (r : Ray) (t0 t1 d0 : ℝ) :
    c.intersectRayF (fun x => x) r t0 t1 d0 = c.intersectRay r t0 t1 d0 := by
  unfold intersectRayF intersectRay
  simp only [rayLoopF_id]
  rfl

end Composite

end Geo
