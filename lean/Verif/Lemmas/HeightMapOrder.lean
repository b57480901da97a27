import Verif.Lemmas.HeightMapUse

/-!
# Helper lemmas for height maps: the order in which a ray searches the columns
-/

namespace Geo
open Spec

/-- Of the two orders of two cells at most one holds. -/
theorem Spec.Sooner.asymm {grid : List (List ℝ)} {res : ℝ} {o : Vec3} {c c' : ℕ × ℕ} (h : Sooner grid res o c c') :
    ¬ Sooner grid res o c' c := by
  rintro ⟨i, a1, a2, a3, a4⟩
  obtain ⟨j, b1, b2, b3, b4⟩ := h
  have mono : ∀ {x y p q : ℕ}, p ≤ q → x / 2 ^ p = y / 2 ^ p → x / 2 ^ q = y / 2 ^ q := by
    intro x y p q hpq e
    obtain ⟨r, rfl⟩ := Nat.exists_eq_add_of_le hpq
    rw [pow_add, ← Nat.div_div_eq_div_mul, ← Nat.div_div_eq_div_mul, e]
  have hij : i = j := by
    rcases lt_trichotomy i j with h | h | h
    · rcases b3 with b3 | b3
      · exact absurd (mono (by omega) a1.symm) b3
      · exact absurd (mono (by omega) a2.symm) b3
    · exact h
    · rcases a3 with a3 | a3
      · exact absurd (mono (by omega) b1.symm) a3
      · exact absurd (mono (by omega) b2.symm) a3
  subst hij
  rcases a4 with ⟨a4, a5⟩ | ⟨a4, a5⟩ <;> rcases b4 with ⟨b4, b5⟩ | ⟨b4, b5⟩
  · exact a5 b4
  · exact a5 (b4.2 a4)
  · exact b5 (a4.2 b4)
  · omega

namespace HeightMap

/-- The box of the quad tree over a block holds the point. -/
theorem quad_contains {grid : List (List ℝ)} {res : ℝ} {o : Vec3} (k x y : ℕ) {c : ℕ × ℕ}
    (hx : c.1 / 2 ^ k = x) (hy : c.2 / 2 ^ k = y) (hc : 0 < height grid c.1 c.2) :
    (quad (height grid) res k (x * 2 ^ k) (y * 2 ^ k)).boxContains o = true ↔ InBlock grid res o k c := by
  obtain ⟨m1, m2, m3⟩ := maxH_spec (height grid) (x * 2 ^ k) (y * 2 ^ k) (2 ^ k)
  have hp : 0 < 2 ^ k := by positivity
  have region : ∀ (u v : ℕ), u / 2 ^ k = v ↔ v * 2 ^ k ≤ u ∧ u < v * 2 ^ k + 2 ^ k := by
    intro u v
    rw [Nat.div_eq_iff hp]
    constructor <;> intro h <;> omega
  have hpos : 0 < maxH (height grid) (x * 2 ^ k) (y * 2 ^ k) (2 ^ k) := by
    have h1 := (region _ _).1 hx
    have h2 := (region _ _).1 hy
    exact lt_of_lt_of_le hc (m2 c.1 c.2 h1.1 h1.2 h2.1 h2.2)
  have hz : o.z ≤ maxH (height grid) (x * 2 ^ k) (y * 2 ^ k) (2 ^ k) ↔
      ∃ c' : ℕ × ℕ, c'.1 / 2 ^ k = x ∧ c'.2 / 2 ^ k = y ∧ o.z ≤ height grid c'.1 c'.2 := by
    constructor
    · intro h
      rcases m3 with m3 | ⟨u, v, q1, q2, q3, q4, e⟩
      · exact absurd m3 hpos.ne'
      · exact ⟨(u, v), (region _ _).2 ⟨q1, q2⟩, (region _ _).2 ⟨q3, q4⟩, e ▸ h⟩
    · rintro ⟨c', h1, h2, h3⟩
      have h1 := (region _ _).1 h1
      have h2 := (region _ _).1 h2
      exact le_trans h3 (m2 c'.1 c'.2 h1.1 h1.2 h2.1 h2.2)
  cases hq : quad (height grid) res k (x * 2 ^ k) (y * 2 ^ k) with
  | null =>
    exfalso
    cases k with
    | zero =>
      rw [quad] at hq
      split_ifs at hq with h
      exact hpos.ne' (by simpa using h)
    | succ k =>
      rw [quad] at hq
      split_ifs at hq with h
      exact hpos.ne' h
  | node b occ ch =>
    have hb := quad_box (height grid) res k (x * 2 ^ k) (y * 2 ^ k) (b := b) (by rw [hq]; rfl)
    simp only [HNode.boxContains, hb, Box.contains, decide_eq_true_eq, Box.new_lo, Box.new_hi, hz, InBlock, hx, hy,
      Nat.cast_mul, Nat.cast_pow, Nat.cast_ofNat, ge_iff_le]
    have e1 : ((x:ℝ) * 2 ^ k + 2 ^ k) * res = (x + 1) * 2 ^ k * res := by ring
    have e2 : ((y:ℝ) * 2 ^ k + 2 ^ k) * res = (y + 1) * 2 ^ k * res := by ring
    rw [e1, e2]

/-- The column whose distance is reported is the first one hit. -/
theorem first_hit {grid : List (List ℝ)} {res : ℝ} (hr : 0 ≤ res) {o d : Vec3} {t0 t1 : ℝ} (k : ℕ) :
    ∀ (x y : ℕ) (d0 : ℝ),
    ((quad (height grid) res k (x * 2 ^ k) (y * 2 ^ k)).intersectRay (Ray.new o d) t0 t1 d0).1 = true →
    ∃ c : ℕ × ℕ, c.1 / 2 ^ k = x ∧ c.2 / 2 ^ k = y ∧ 0 < height grid c.1 c.2 ∧
      ((Box.new (columnLo res c) (columnHi res grid c)).intersectRay (Ray.new o d) t0 t1 0).1 = true ∧
      ((quad (height grid) res k (x * 2 ^ k) (y * 2 ^ k)).intersectRay (Ray.new o d) t0 t1 d0).2 =
        ((Box.new (columnLo res c) (columnHi res grid c)).intersectRay (Ray.new o d) t0 t1 0).2 ∧
      ∀ c' : ℕ × ℕ, c'.1 / 2 ^ k = x → c'.2 / 2 ^ k = y → 0 < height grid c'.1 c'.2 →
        ((Box.new (columnLo res c') (columnHi res grid c')).intersectRay (Ray.new o d) t0 t1 0).1 = true →
        c' = c ∨ Sooner grid res o c c' := by
  induction k with
  | zero =>
    intro x y d0 hh
    obtain ⟨hit, D, c1, c2, c3⟩ := HNode.cast (nested_quad (height grid) hr 0 (x * 2 ^ 0) (y * 2 ^ 0)) o d t0 t1
    have hh' : hit = true := (c1 d0).1.symm.trans hh
    obtain ⟨l, hl1, hl2, hl3⟩ := c3 hh'
    rw [leaves_quad, cells] at hl1
    simp only [List.mem_map, List.mem_filter, List.mem_singleton, decide_eq_true_eq] at hl1
    obtain ⟨c, ⟨rfl, hc⟩, rfl⟩ := hl1
    refine ⟨_, by simp, by simp, hc, hl2, ((c1 d0).2 hh').trans hl3, ?_⟩
    rintro ⟨u, v⟩ h1 h2 - -
    left
    simp only [pow_zero, Nat.div_one, mul_one] at h1 h2 ⊢
    rw [h1, h2]
  | succ k ih =>
    intro x y d0 hh
    have hp : 0 < 2 ^ k := by positivity
    have e2 : 2 ^ (k + 1) = 2 * 2 ^ k := by ring
    obtain ⟨hit, D, c1, c2, c3⟩ := HNode.cast (nested_quad (height grid) hr (k + 1) (x * 2 ^ (k + 1))
      (y * 2 ^ (k + 1))) o d t0 t1
    have hnull : maxH (height grid) (x * 2 ^ (k + 1)) (y * 2 ^ (k + 1)) (2 ^ (k + 1)) ≠ 0 := by
      intro hm
      rw [quad, if_pos hm] at hh
      simp [HNode.intersectRay] at hh
    generalize hch : (![quad (height grid) res k (x * 2 ^ (k + 1)) (y * 2 ^ (k + 1)),
        quad (height grid) res k (x * 2 ^ (k + 1) + 2 ^ k) (y * 2 ^ (k + 1)),
        quad (height grid) res k (x * 2 ^ (k + 1)) (y * 2 ^ (k + 1) + 2 ^ k),
        quad (height grid) res k (x * 2 ^ (k + 1) + 2 ^ k) (y * 2 ^ (k + 1) + 2 ^ k)] : Fin 4 → HNode) = ch
    -- the blocks of the children
    let X : Fin 4 → ℕ := ![2 * x, 2 * x + 1, 2 * x, 2 * x + 1]
    let Y : Fin 4 → ℕ := ![2 * y, 2 * y, 2 * y + 1, 2 * y + 1]
    have chq : ∀ i, ch i = quad (height grid) res k (X i * 2 ^ k) (Y i * 2 ^ k) := by
      have ex : x * 2 ^ (k + 1) = 2 * x * 2 ^ k := by ring
      have ey : y * 2 ^ (k + 1) = 2 * y * 2 ^ k := by ring
      have ex' : 2 * x * 2 ^ k + 2 ^ k = (2 * x + 1) * 2 ^ k := by ring
      have ey' : 2 * y * 2 ^ k + 2 ^ k = (2 * y + 1) * 2 ^ k := by ring
      intro i
      rw [← hch, ex, ey, ex', ey']
      fin_cases i <;> rfl
    obtain ⟨B, hq⟩ : ∃ B, quad (height grid) res (k + 1) (x * 2 ^ (k + 1)) (y * 2 ^ (k + 1)) = .node B false ch := by
      refine ⟨_, by rw [quad, if_neg hnull, hch]⟩
    have hn : Nested (.node B false ch) := hq ▸ nested_quad (height grid) hr (k + 1) _ _
    rw [hq] at hh ⊢
    choose b g h1 h2 h3 using fun i => HNode.cast (hn.2 i).1 o d t0 t1
    have hB : (B.intersectRay (Ray.new o d) t0 t1 d0).1 = true := by
      by_contra hc
      rw [Bool.not_eq_true] at hc
      unfold HNode.intersectRay at hh
      simp [hc] at hh
    have eq : (HNode.node B false ch).intersectRay (Ray.new o d) t0 t1 d0 =
        (let first := HNode.loopOrigin (fun i => (ch i).boxContains (Ray.new o d).origin)
          (fun i d' => HNode.intersectRay (ch i) (Ray.new o d) t0 t1 d') [0, 1, 2, 3]
          (B.intersectRay (Ray.new o d) t0 t1 d0).2 none
        if first.1 then (true, first.2.1) else HNode.loopRest first.2.2
          (fun i d' => HNode.intersectRay (ch i) (Ray.new o d) t0 t1 d') [0, 1, 2, 3] first.2.1) := by
      conv_lhs => unfold HNode.intersectRay
      simp [hB]
    obtain ⟨L1, i, L2⟩ := HNode.loops (sel := fun i => (ch i).boxContains (Ray.new o d).origin) h1
      (B.intersectRay (Ray.new o d) t0 t1 d0).2
    rw [eq] at hh ⊢
    obtain ⟨e, hbi, hsel⟩ := L2 _ hh
    rw [e]
    have half : ∀ (u v : ℕ), u / 2 ^ (k + 1) = v ↔ u / 2 ^ k = 2 * v ∨ u / 2 ^ k = 2 * v + 1 := by
      intro u v
      rw [pow_succ, ← Nat.div_div_eq_div_mul]
      omega
    have child : ∀ c : ℕ × ℕ, c.1 / 2 ^ (k + 1) = x → c.2 / 2 ^ (k + 1) = y →
        ∃ i, c.1 / 2 ^ k = X i ∧ c.2 / 2 ^ k = Y i := by
      intro c hx hy
      rcases (half _ _).1 hx with hx | hx <;> rcases (half _ _).1 hy with hy | hy
      exacts [⟨0, hx, hy⟩, ⟨2, hx, hy⟩, ⟨1, hx, hy⟩, ⟨3, hx, hy⟩]
    have parent : ∀ (c : ℕ × ℕ) i, c.1 / 2 ^ k = X i → c.2 / 2 ^ k = Y i →
        c.1 / 2 ^ (k + 1) = x ∧ c.2 / 2 ^ (k + 1) = y := by
      intro c i hx hy
      rw [half, half, hx, hy]
      fin_cases i <;> simp [X, Y]
    have number : ∀ (c : ℕ × ℕ) i, c.1 / 2 ^ k = X i → c.2 / 2 ^ k = Y i → quarter k c = i.val := by
      intro c i hx hy
      rw [quarter, hx, hy]
      fin_cases i <;> simp [X, Y]
    have hit_i := ih (X i) (Y i) 0
    rw [← chq i] at hit_i
    obtain ⟨c, s1, s2, s3, s4, s5, s6⟩ := hit_i ((h1 i 0).1.trans hbi)
    rw [(h1 i 0).2 hbi] at s5
    refine ⟨c, (parent c i s1 s2).1, (parent c i s1 s2).2, s3, s4, s5, fun c' g1 g2 g3 g4 => ?_⟩
    obtain ⟨j, q1, q2⟩ := child c' g1 g2
    have hbj : b j = true := by
      refine (h2 j).2 ⟨_, ?_, g4⟩
      rw [chq j, leaves_quad]
      simp only [List.mem_map, List.mem_filter, decide_eq_true_eq, mem_cells]
      refine ⟨c', ⟨?_, g3⟩, rfl⟩
      have r1 := (Nat.div_eq_iff hp).1 q1
      have r2 := (Nat.div_eq_iff hp).1 q2
      omega
    by_cases hij : j = i
    · subst hij
      exact s6 c' q1 q2 g3 g4
    right
    refine ⟨k, ?_, ?_, ?_, ?_⟩
    · rw [(parent c i s1 s2).1, g1]
    · rw [(parent c i s1 s2).2, g2]
    · rw [s1, s2, q1, q2]
      by_contra hc
      push Not at hc
      apply hij
      obtain ⟨a1, a2⟩ := hc
      fin_cases i <;> fin_cases j <;> simp [X, Y] at a1 a2 ⊢
    · have k1 : (ch i).boxContains (Ray.new o d).origin = true ↔ InBlock grid res o k c := by
        rw [chq i]; exact quad_contains k (X i) (Y i) s1 s2 s3
      have k2 : (ch j).boxContains (Ray.new o d).origin = true ↔ InBlock grid res o k c' := by
        rw [chq j]; exact quad_contains k (X j) (Y j) q1 q2 g3
      rw [number c i s1 s2, number c' j q1 q2, ← k1, ← k2]
      rcases hsel with ⟨u1, u2⟩ | ⟨u1, u2⟩
      · by_cases hj : (ch j).boxContains (Ray.new o d).origin = true
        · right
          refine ⟨⟨fun _ => hj, fun _ => u1⟩, ?_⟩
          rcases lt_trichotomy i j with h | h | h
          · exact h
          · exact absurd h.symm hij
          · rw [u2 j h hj] at hbj; simp at hbj
        · exact .inl ⟨u1, hj⟩
      · right
        have n1 : ¬ (ch i).boxContains (Ray.new o d).origin = true := by
          intro h; rw [u1 i h] at hbi; simp at hbi
        have n2 : ¬ (ch j).boxContains (Ray.new o d).origin = true := by
          intro h; rw [u1 j h] at hbj; simp at hbj
        refine ⟨⟨fun h => absurd h n1, fun h => absurd h n2⟩, ?_⟩
        rcases lt_trichotomy i j with h | h | h
        · exact h
        · exact absurd h.symm hij
        · rw [u2 j h] at hbj; simp at hbj

end HeightMap
end Geo
