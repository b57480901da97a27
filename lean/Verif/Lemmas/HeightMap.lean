import Verif.Spec.HeightMap
import Verif.Lemmas.OctreeUse

/-!
# Helper lemmas for height maps: the quad tree
-/

namespace Geo
open Spec

theorem foldlM_ok {α β : Type _} {f : β → α → Exec β} {g : β → α → β} {l : List α} (b : β)
    (h : ∀ b, ∀ a ∈ l, f b a = .ok (g b a)) : l.foldlM f b = .ok (l.foldl g b) := by
  induction l generalizing b with
  | nil => rfl
  | cons a l ih =>
    rw [List.foldlM_cons, h b a (by simp), List.foldl_cons]
    exact ih _ fun b a ha => h b a (by simp [ha])

theorem foldl_max {α : Type _} (f : α → ℝ) (l : List α) (b : ℝ) :
    let r := l.foldl (fun m a => max m (f a)) b
    b ≤ r ∧ (∀ a ∈ l, f a ≤ r) ∧ (r = b ∨ ∃ a ∈ l, r = f a) := by
  induction l generalizing b with
  | nil => simp
  | cons a l ih =>
    obtain ⟨h1, h2, h3⟩ := ih (max b (f a))
    simp only [List.foldl_cons, List.mem_cons, forall_eq_or_imp, exists_eq_or_imp]
    refine ⟨le_trans (le_max_left _ _) h1, ⟨le_trans (le_max_right _ _) h1, h2⟩, ?_⟩
    rcases h3 with h3 | h3
    · rcases max_choice b (f a) with h | h <;> rw [h] at h3
      · exact .inl (by rw [h]; exact h3)
      · exact .inr (.inl (by rw [h]; exact h3))
    · exact .inr (.inr h3)

/-- Greatest height of a square region, at least 0. -/
noncomputable def maxH (H : ℕ → ℕ → ℝ) (x0 y0 w : ℕ) : ℝ :=
  (List.range' x0 w).foldl (fun m x => (List.range' y0 w).foldl (fun m y => max m (H x y)) m) 0

theorem maxH_spec (H : ℕ → ℕ → ℝ) (x0 y0 w : ℕ) :
    0 ≤ maxH H x0 y0 w ∧
    (∀ x y, x0 ≤ x → x < x0 + w → y0 ≤ y → y < y0 + w → H x y ≤ maxH H x0 y0 w) ∧
    (maxH H x0 y0 w = 0 ∨ ∃ x y, x0 ≤ x ∧ x < x0 + w ∧ y0 ≤ y ∧ y < y0 + w ∧ maxH H x0 y0 w = H x y) := by
  have key : ∀ (l : List ℕ) (b : ℝ),
      let r := l.foldl (fun m x => (List.range' y0 w).foldl (fun m y => max m (H x y)) m) b
      b ≤ r ∧ (∀ x ∈ l, ∀ y ∈ List.range' y0 w, H x y ≤ r) ∧
        (r = b ∨ ∃ x ∈ l, ∃ y ∈ List.range' y0 w, r = H x y) := by
    intro l
    induction l with
    | nil => simp
    | cons a l ih =>
      intro b
      obtain ⟨g1, g2, g3⟩ := foldl_max (fun y => H a y) (List.range' y0 w) b
      obtain ⟨h1, h2, h3⟩ := ih ((List.range' y0 w).foldl (fun m y => max m (H a y)) b)
      simp only [List.foldl_cons, List.mem_cons, forall_eq_or_imp, exists_eq_or_imp]
      refine ⟨le_trans g1 h1, ⟨fun y hy => le_trans (g2 y hy) h1, h2⟩, ?_⟩
      rcases h3 with h3 | h3
      · rcases g3 with g3 | g3
        · exact .inl (h3.trans g3)
        · obtain ⟨y, hy, e⟩ := g3
          exact .inr (.inl ⟨y, hy, h3.trans e⟩)
      · exact .inr (.inr h3)
  obtain ⟨h1, h2, h3⟩ := key (List.range' x0 w) 0
  refine ⟨h1, fun x y a b c d => h2 x (by simp [a, b]) y (by simp [c, d]), ?_⟩
  rcases h3 with h3 | ⟨x, hx, y, hy, e⟩
  · exact .inl h3
  · simp at hx hy
    exact .inr ⟨x, y, hx.1, hx.2, hy.1, hy.2, e⟩

namespace HeightMap

theorem maxHeight_eq {map : List (List ℝ)} {H : ℕ → ℕ → ℝ} {x0 y0 w : ℕ}
    (h : ∀ x y, x < x0 + w → y < y0 + w → cell map x y = .ok (H x y)) :
    maxHeight map x0 y0 (x0 + w) (y0 + w) = .ok (maxH H x0 y0 w) := by
  unfold maxHeight maxH
  simp only [Nat.add_sub_cancel_left]
  refine foldlM_ok _ fun b x hx => foldlM_ok _ fun m y hy => ?_
  simp at hx hy
  rw [h x y hx.2 hy.2]
  rfl

open Classical in
/-- The quad tree over a square region of side `2 ^ k`. -/
noncomputable def quad (H : ℕ → ℕ → ℝ) (res : ℝ) : ℕ → ℕ → ℕ → HNode
  | 0, x0, y0 =>
    if maxH H x0 y0 1 = 0 then .null
    else .node (Box.new ⟨x0 * res, y0 * res, 0⟩ ⟨(x0 + 1) * res, (y0 + 1) * res, maxH H x0 y0 1⟩) true
      fun _ => .null
  | k + 1, x0, y0 =>
    if maxH H x0 y0 (2 ^ (k + 1)) = 0 then .null
    else .node (Box.new ⟨x0 * res, y0 * res, 0⟩
        ⟨(x0 + 2 ^ (k + 1)) * res, (y0 + 2 ^ (k + 1)) * res, maxH H x0 y0 (2 ^ (k + 1))⟩) false
      ![quad H res k x0 y0, quad H res k (x0 + 2 ^ k) y0, quad H res k x0 (y0 + 2 ^ k),
        quad H res k (x0 + 2 ^ k) (y0 + 2 ^ k)]

theorem createQuadTree_eq {map : List (List ℝ)} {H : ℕ → ℕ → ℝ} {res : ℝ} (k : ℕ) : ∀ (x0 y0 : ℕ),
    (∀ x y, x < x0 + 2 ^ k → y < y0 + 2 ^ k → cell map x y = .ok (H x y)) →
    createQuadTree map x0 y0 (x0 + 2 ^ k) (y0 + 2 ^ k) res = .ok (quad H res k x0 y0) := by
  induction k with
  | zero =>
    intro x0 y0 h
    rw [createQuadTree, maxHeight_eq h]
    simp only [Except.bind, quad, pow_zero, Nat.add_sub_cancel_left, true_or, true_and, if_true, Nat.cast_add,
      Nat.cast_one]
    split_ifs <;> rfl
  | succ k ih =>
    intro x0 y0 h
    have hp : 0 < 2 ^ k := by positivity
    have e : 2 ^ (k + 1) = 2 ^ k + 2 ^ k := by ring
    rw [createQuadTree, maxHeight_eq h]
    have ex : (x0 + 2 ^ (k + 1) + x0) / 2 = x0 + 2 ^ k := by omega
    have ey : (y0 + 2 ^ (k + 1) + y0) / 2 = y0 + 2 ^ k := by omega
    have h1 : x0 + 2 ^ (k + 1) = x0 + 2 ^ k + 2 ^ k := by omega
    have h2 : y0 + 2 ^ (k + 1) = y0 + 2 ^ k + 2 ^ k := by omega
    have c0 := ih x0 y0 fun x y a b => h x y (by omega) (by omega)
    have c1 := ih (x0 + 2 ^ k) y0 fun x y a b => h x y (by omega) (by omega)
    have c2 := ih x0 (y0 + 2 ^ k) fun x y a b => h x y (by omega) (by omega)
    have c3 := ih (x0 + 2 ^ k) (y0 + 2 ^ k) fun x y a b => h x y (by omega) (by omega)
    rw [← h1] at c1 c3
    rw [← h2] at c2 c3
    have n1 : ¬ (2 ^ (k + 1) = 1 ∨ 2 ^ (k + 1) = 1) := by omega
    have n2 : ¬ (2 ^ (k + 1) = 0) := by omega
    simp only [Except.bind, quad, Nat.add_sub_cancel_left, ex, ey, c0, c1, c2, c3, n1, n2, if_false, dif_neg,
      not_false_eq_true]
    split_ifs <;> simp

/-- The cells of a square region of side `2 ^ k` in the order of the tree. -/
def cells : ℕ → ℕ → ℕ → List (ℕ × ℕ)
  | 0, x0, y0 => [(x0, y0)]
  | k + 1, x0, y0 => cells k x0 y0 ++ cells k (x0 + 2 ^ k) y0 ++ cells k x0 (y0 + 2 ^ k) ++
      cells k (x0 + 2 ^ k) (y0 + 2 ^ k)

theorem mem_cells (k : ℕ) : ∀ (x0 y0 : ℕ) (c : ℕ × ℕ), c ∈ cells k x0 y0 ↔
    x0 ≤ c.1 ∧ c.1 < x0 + 2 ^ k ∧ y0 ≤ c.2 ∧ c.2 < y0 + 2 ^ k := by
  induction k with
  | zero =>
    rintro x0 y0 ⟨x, y⟩
    simp only [cells, List.mem_singleton, Prod.mk.injEq, pow_zero]
    omega
  | succ k ih =>
    rintro x0 y0 ⟨x, y⟩
    have e : 2 ^ (k + 1) = 2 ^ k + 2 ^ k := by ring
    simp only [cells, List.mem_append, ih]
    omega

theorem cells_nodup (k : ℕ) : ∀ (x0 y0 : ℕ), (cells k x0 y0).Nodup := by
  induction k with
  | zero => intro x0 y0; simp [cells]
  | succ k ih =>
    intro x0 y0
    have hp : 0 < 2 ^ k := by positivity
    simp only [cells, List.nodup_append, ih, true_and, List.mem_append, mem_cells]
    refine ⟨⟨?_, ?_⟩, ?_⟩
    · rintro ⟨a, b⟩ h ⟨c, d⟩ h' e
      simp only [Prod.mk.injEq] at e h h'; omega
    · rintro ⟨a, b⟩ h ⟨c, d⟩ h' e
      simp only [Prod.mk.injEq] at e h h'; omega
    · rintro ⟨a, b⟩ h ⟨c, d⟩ h' e
      simp only [Prod.mk.injEq] at e h h'; omega

open Classical in
theorem leaves_quad (H : ℕ → ℕ → ℝ) (res : ℝ) (k : ℕ) : ∀ (x0 y0 : ℕ), leaves (quad H res k x0 y0) =
    ((cells k x0 y0).filter fun c => decide (0 < H c.1 c.2)).map fun c =>
      Box.new (columnLo res c) ⟨(c.1 + 1) * res, (c.2 + 1) * res, H c.1 c.2⟩ := by
  induction k with
  | zero =>
    intro x0 y0
    obtain ⟨m1, m2, m3⟩ := maxH_spec H x0 y0 1
    have h0 := m2 x0 y0 le_rfl (by omega) le_rfl (by omega)
    rw [quad]
    split_ifs with hm
    · have : ¬ 0 < H x0 y0 := by linarith
      simp [leaves, cells, this]
    · have e : maxH H x0 y0 1 = H x0 y0 := by
        rcases m3 with m3 | ⟨x, y, a, b, c, d, e⟩
        · exact absurd m3 hm
        · rw [e, show x = x0 by omega, show y = y0 by omega]
      have : 0 < H x0 y0 := by
        rw [e] at m1 hm
        exact lt_of_le_of_ne m1 (Ne.symm hm)
      simp [leaves, cells, this, e, columnLo]
  | succ k ih =>
    intro x0 y0
    obtain ⟨m1, m2, m3⟩ := maxH_spec H x0 y0 (2 ^ (k + 1))
    rw [quad]
    split_ifs with hm
    · rw [List.filter_eq_nil_iff.2]
      · rfl
      · intro c hc
        rw [mem_cells] at hc
        have := m2 c.1 c.2 hc.1 hc.2.1 hc.2.2.1 hc.2.2.2
        simp only [decide_eq_true_eq]
        linarith
    · simp only [leaves, Matrix.cons_val, ih, cells, List.filter_append, List.map_append]

theorem quad_box (H : ℕ → ℕ → ℝ) (res : ℝ) (k x0 y0 : ℕ) {b : Box} (h : boxOf (quad H res k x0 y0) = some b) :
    b = Box.new ⟨x0 * res, y0 * res, 0⟩ ⟨(x0 + 2 ^ k) * res, (y0 + 2 ^ k) * res, maxH H x0 y0 (2 ^ k)⟩ := by
  cases k with
  | zero =>
    rw [quad] at h
    split_ifs at h
    · simp [boxOf] at h
    · simp only [boxOf, Option.some.injEq] at h
      rw [← h]; simp
  | succ k =>
    rw [quad] at h
    split_ifs at h
    · simp [boxOf] at h
    · simp only [boxOf, Option.some.injEq] at h
      rw [← h]

theorem maxH_mono (H : ℕ → ℕ → ℝ) {x0 y0 w x1 y1 v : ℕ} (hx : x0 ≤ x1) (hy : y0 ≤ y1) (hx' : x1 + v ≤ x0 + w)
    (hy' : y1 + v ≤ y0 + w) : maxH H x1 y1 v ≤ maxH H x0 y0 w := by
  obtain ⟨m1, m2, m3⟩ := maxH_spec H x0 y0 w
  obtain ⟨-, -, n3⟩ := maxH_spec H x1 y1 v
  rcases n3 with n3 | ⟨x, y, a, b, c, d, e⟩
  · rw [n3]; exact m1
  · rw [e]; exact m2 x y (by omega) (by omega) (by omega) (by omega)

theorem nested_quad (H : ℕ → ℕ → ℝ) {res : ℝ} (hr : 0 ≤ res) (k : ℕ) : ∀ (x0 y0 : ℕ), Nested (quad H res k x0 y0) := by
  have mul : ∀ {a b : ℝ}, a ≤ b → a * res ≤ b * res := fun h => mul_le_mul_of_nonneg_right h hr
  induction k with
  | zero =>
    intro x0 y0
    rw [quad]
    split_ifs
    · trivial
    · refine ⟨⟨?_, ?_, ?_⟩, fun i => ⟨trivial, fun b' h => by simp [boxOf] at h⟩⟩
      · exact mul (by linarith)
      · exact mul (by linarith)
      · exact (maxH_spec H x0 y0 1).1
  | succ k ih =>
    intro x0 y0
    have hp : (0:ℝ) < 2 ^ k := by positivity
    have e : (2:ℝ) ^ (k + 1) = 2 ^ k + 2 ^ k := by ring
    have en : 2 ^ (k + 1) = 2 ^ k + 2 ^ k := by ring
    have hpn : 0 < 2 ^ k := by positivity
    have sub : ∀ x1 y1, x0 ≤ x1 → y0 ≤ y1 → x1 ≤ x0 + 2 ^ k → y1 ≤ y0 + 2 ^ k → ∀ b',
        boxOf (quad H res k x1 y1) = some b' →
        InBox ⟨x0 * res, y0 * res, 0⟩ ⟨(x0 + 2 ^ (k + 1)) * res, (y0 + 2 ^ (k + 1)) * res,
          maxH H x0 y0 (2 ^ (k + 1))⟩ b'.lo ∧
        InBox ⟨x0 * res, y0 * res, 0⟩ ⟨(x0 + 2 ^ (k + 1)) * res, (y0 + 2 ^ (k + 1)) * res,
          maxH H x0 y0 (2 ^ (k + 1))⟩ b'.hi := by
      intro x1 y1 h1 h2 h3 h4 b' hb
      rw [quad_box H res k x1 y1 hb]
      have mm := maxH_mono H h1 h2 (v := 2 ^ k) (w := 2 ^ (k + 1)) (by omega) (by omega)
      have h1' : (x0:ℝ) ≤ x1 := by exact_mod_cast h1
      have h2' : (y0:ℝ) ≤ y1 := by exact_mod_cast h2
      have h3' : (x1:ℝ) ≤ x0 + 2 ^ k := by exact_mod_cast h3
      have h4' : (y1:ℝ) ≤ y0 + 2 ^ k := by exact_mod_cast h4
      have g0 := (maxH_spec H x1 y1 (2 ^ k)).1
      refine ⟨⟨mul h1', mul (by linarith), mul h2', mul (by linarith), le_rfl, le_trans g0 mm⟩,
        ⟨mul (by linarith), mul (by linarith), mul (by linarith), mul (by linarith), g0, mm⟩⟩
    rw [quad]
    split_ifs
    · trivial
    · refine ⟨⟨mul (by simp), mul (by simp), (maxH_spec H x0 y0 _).1⟩, fun i => ?_⟩
      fin_cases i
      · exact ⟨ih _ _, sub _ _ le_rfl le_rfl (by omega) (by omega)⟩
      · exact ⟨ih _ _, sub _ _ (by omega) le_rfl (by omega) (by omega)⟩
      · exact ⟨ih _ _, sub _ _ le_rfl (by omega) (by omega) (by omega)⟩
      · exact ⟨ih _ _, sub _ _ (by omega) (by omega) (by omega) (by omega)⟩

/-! ## The padded grid -/

theorem cell_ok {grid : List (List ℝ)} {m n : ℕ} (h : Rectangular grid m n) {x y : ℕ} (hx : x < m) (hy : y < n) :
    cell grid x y = .ok (height grid x y) := by
  obtain ⟨h1, h2⟩ := h
  have hx' : x < grid.length := by omega
  have hl := h2 grid[x] (List.getElem_mem hx')
  have hy' : y < grid[x].length := by omega
  unfold cell height
  simp [vget_lt hx', vget_lt hy', bind, Except.bind, hx', hy']

theorem height_out {grid : List (List ℝ)} {m n : ℕ} (h : Rectangular grid m n) {x y : ℕ} (hx : m ≤ x ∨ n ≤ y) :
    height grid x y = 0 := by
  obtain ⟨h1, h2⟩ := h
  unfold height
  rcases lt_or_ge x grid.length with hl | hl
  · have := h2 grid[x] (List.getElem_mem hl)
    have hy : grid[x].length ≤ y := by omega
    simp [hl, hy]
  · simp [hl]

theorem powGrid_eq {grid : List (List ℝ)} {m n P : ℕ} (h : Rectangular grid m n) (hm : m ≤ P) (hn : n ≤ P) :
    ∃ map, powGrid grid n P = .ok map ∧
      ∀ x y, x < P → y < P → cell map x y = .ok (height grid x y) := by
  have e : grid.mapM (fun row => do
      let cells ← (List.range n).mapM fun y => vget row y
      return cells ++ List.replicate (P - n) 0) =
      .ok (grid.map fun row => row ++ List.replicate (P - n) (0:ℝ)) := by
    refine mapM_ok_of fun row hrow => ?_
    have hl := h.2 row hrow
    rw [show (List.range n).mapM (fun y => vget row y) = .ok ((List.range n).map fun y => row.getD y 0) from
      mapM_ok_of fun y hy => by
        have hy' : y < row.length := by simp at hy; omega
        rw [vget_lt hy']; simp [hy']]
    have : (List.range n).map (fun y => row.getD y 0) = row := by
      refine List.ext_getElem (by simp [hl]) fun i h1 h2 => ?_
      simp [h2]
    rw [this]; rfl
  refine ⟨_, by unfold powGrid; rw [e]; rfl, fun x y hx hy => ?_⟩
  obtain ⟨h1, h2⟩ := h
  unfold cell
  rcases lt_or_ge x m with hxm | hxm
  · have hx' : x < grid.length := by omega
    have hl := h2 grid[x] (List.getElem_mem hx')
    have g : vget (grid.map (fun row => row ++ List.replicate (P - n) (0:ℝ)) ++
        List.replicate (P - grid.length) (List.replicate P 0)) x =
        .ok (grid[x] ++ List.replicate (P - n) (0:ℝ)) := by
      rw [vget_ok, List.getElem?_append_left (by simpa using hx')]
      simp [hx']
    rw [g]
    simp only [bind, Except.bind]
    rw [vget_ok]
    rcases lt_or_ge y n with hyn | hyn
    · have hy' : y < grid[x].length := by omega
      rw [List.getElem?_append_left hy']
      simp [height, hx', hy']
    · rw [List.getElem?_append_right (by omega), height_out ⟨h1, h2⟩ (.inr hyn)]
      rw [List.getElem?_replicate, if_pos (by omega)]
  · have g : vget (grid.map (fun row => row ++ List.replicate (P - n) (0:ℝ)) ++
        List.replicate (P - grid.length) (List.replicate P 0)) x = .ok (List.replicate P (0:ℝ)) := by
      rw [vget_ok, List.getElem?_append_right (by simp; omega)]
      rw [List.getElem?_replicate, if_pos (by simp; omega)]
    rw [g]
    simp only [bind, Except.bind]
    rw [vget_ok, height_out ⟨h1, h2⟩ (.inl hxm), List.getElem?_replicate, if_pos hy]

theorem powLoop_steady (size p : ℕ) : Steady fun n => powLoop size n p := by
  intro n
  induction n generalizing p with
  | zero => intro h; exact absurd rfl h
  | succ n ih =>
    intro h
    have e : ∀ j, powLoop size (j + 1) p = if p < size then powLoop size j (u32 (p * 2)) else .ok p := fun _ => rfl
    simp only [e] at h ⊢
    by_cases hs : p < size
    · simp only [if_pos hs] at h ⊢
      exact ih _ h
    · simp only [if_neg hs]

theorem powSize {size : ℕ} (h : size ≤ 2 ^ 31) :
    ∃ k, size ≤ 2 ^ k ∧ (∀ j < k, 2 ^ j < size) ∧ unbounded (fun n => powLoop size n 1) = .ok (2 ^ k) := by
  have hex : ∃ k, size ≤ 2 ^ k := ⟨31, h⟩
  classical
  obtain ⟨k, hk, hmin⟩ : ∃ k, size ≤ 2 ^ k ∧ ∀ j < k, 2 ^ j < size :=
    ⟨Nat.find hex, Nat.find_spec hex, fun j hj => not_le.1 (Nat.find_min hex hj)⟩
  have hk31 : k ≤ 31 := by
    by_contra hc
    have := hmin 31 (by omega)
    omega
  refine ⟨k, hk, hmin, ?_⟩
  have key : ∀ i j, i + j = k → powLoop size (i + 1) (2 ^ j) = .ok (2 ^ k) := by
    intro i
    induction i with
    | zero =>
      intro j hj
      have : j = k := by omega
      subst this
      simp [powLoop, hk]
    | succ i ih =>
      intro j hj
      rw [powLoop, if_pos (hmin j (by omega))]
      have : u32 (2 ^ j * 2) = 2 ^ (j + 1) := by
        unfold u32
        rw [← pow_succ]
        exact Nat.mod_eq_of_lt (Nat.pow_lt_pow_right (by norm_num) (by omega))
      rw [this]
      exact ih (j + 1) (by omega)
  exact (powLoop_steady size 1).eq (key k 0 (by omega)) (by simp)

end HeightMap

end Geo
