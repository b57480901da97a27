import Verif.Model.RoundedMesh
import Verif.Lemmas.MeshFilter
import Verif.Lemmas.RoundedBox
import Verif.Lemmas.RoundedRay
import Verif.Spec.RoundedMesh

/-! # Helper lemmas about functions of meshes in floating point arithmetic -/

namespace Geo.Rounded
open Spec Matrix

variable {u : ℝ} {rnd : ℝ → ℝ}

/-- The point whose cell in exact arithmetic is the computed cell. (Device of the proofs.) -/
noncomputable def cellPoint (rnd : ℝ → ℝ) (v : Vec3) : Vec3 := ⟨rnd (1000 * v.x) / 1000, rnd (1000 * v.y) / 1000, rnd (1000 * v.z) / 1000⟩

theorem cellKey_eq (v : Vec3) : Mesh.cellKey (cellPoint rnd v) = cellKey rnd v := by
  unfold Mesh.cellKey cellKey cellPoint
  have : ∀ x : ℝ, 1000 * (x / 1000) = x := fun x => by ring
  simp only [this]

theorem filterLoop_map (vs pts : List Vec3) (xyz : List ((ℤ × ℤ × ℤ) × ℕ)) (imap : List ℕ) :
    Mesh.filterLoop (vs.map (cellPoint rnd)) (pts.map (cellPoint rnd)) xyz imap =
      (filterLoop rnd vs pts xyz imap).map fun r => (r.1.map (cellPoint rnd), r.2) := by
  induction vs generalizing pts xyz imap with
  | nil => rfl
  | cons v vs ih =>
    simp only [List.map_cons]
    unfold Mesh.filterLoop filterLoop
    rw [cellKey_eq]
    rcases cellKey rnd v with e | k
    · rfl
    · simp only [bind, Except.bind]
      rcases xyz.lookup k with _ | i
      · simp only [List.length_map]
        rw [← ih, List.map_append]
        rfl
      · exact ih _ _ _

theorem filterLoop_sub (vs pts : List Vec3) (xyz : List ((ℤ × ℤ × ℤ) × ℕ)) (imap : List ℕ) {r : List Vec3 × List ℕ}
    (h : filterLoop rnd vs pts xyz imap = .ok r) : ∃ q : List Vec3, q.Sublist vs ∧ r.1 = pts ++ q := by
  induction vs generalizing pts xyz imap with
  | nil =>
    refine ⟨[], List.Sublist.refl _, ?_⟩
    simp only [filterLoop, Except.ok.injEq] at h
    rw [← h, List.append_nil]
  | cons v vs ih =>
    unfold filterLoop at h
    rcases hk : cellKey rnd v with e | k
    · rw [hk] at h
      simp [bind, Except.bind] at h
    · rw [hk] at h
      simp only [bind, Except.bind] at h
      rcases hl : xyz.lookup k with _ | i
      · rw [hl] at h
        obtain ⟨q, h1, h2⟩ := ih _ _ _ h
        exact ⟨v :: q, h1.cons_cons v, by rw [h2]; simp⟩
      · rw [hl] at h
        obtain ⟨q, h1, h2⟩ := ih _ _ _ h
        exact ⟨q, h1.cons v, h2⟩

theorem filter_map (m : Mesh) :
    ({ m with points := m.points.map (cellPoint rnd) } : Mesh).filterOverlappingVertices =
      (filterOverlappingVertices rnd m).map fun m' => { m' with points := m'.points.map (cellPoint rnd) } := by
  have h := filterLoop_map (rnd := rnd) m.points [] [] []
  rw [List.map_nil] at h
  unfold Mesh.filterOverlappingVertices filterOverlappingVertices
  rw [h]
  rcases filterLoop rnd m.points [] [] [] with e | ⟨pts, imap⟩
  · rfl
  · simp only [Except.map, bind, Except.bind, pure, Except.pure]
    generalize hL : List.mapM (m := Except Fault) _ m.tris = L
    rcases L with e | ts
    · rfl
    · by_cases he : m.points.isEmpty <;> simp [he, Mesh.invalidateCache]

theorem filter_sub {m m' : Mesh} (h : filterOverlappingVertices rnd m = .ok m') : m'.points.Sublist m.points := by
  unfold filterOverlappingVertices at h
  rw [Exec.bind_ok] at h
  obtain ⟨r, h1, h2⟩ := h
  obtain ⟨q, h3, h4⟩ := filterLoop_sub _ _ _ _ h1
  rw [Exec.bind_ok] at h2
  obtain ⟨ts, -, h5⟩ := h2
  simp only [pure, Except.pure, Except.ok.injEq] at h5
  rw [← h5]
  show r.1.Sublist _
  rw [h4]
  exact h3

theorem soup_map (f : Vec3 → Vec3) {ps : List Vec3} {ts : List TriI} {l : List (Vec3 × Vec3 × Vec3)} (h : soup ps ts = some l) :
    soup (ps.map f) ts = some (l.map fun c => (f c.1, f c.2.1, f c.2.2)) := by
  rw [Mesh.soup_some] at h ⊢
  rw [List.forall₂_map_right_iff]
  refine h.imp ?_
  rintro t c ⟨a, b, d⟩
  simp [a, b, d]

/-- Two coordinates with the same computed cell are close. -/
theorem cell_close (h : RelErr u rnd) {x y : ℝ}
    (hc : SameCell (rnd (1000 * x) / 1000) (rnd (1000 * y) / 1000)) :
    |x - y| < 2 / 1000 + u * (|x| + |y|) ∧ (1 / 1000 ≤ |x| - u * |x| → |x - y| < 1 / 1000 + u * (|x| + |y|)) := by
  have hu0 := relErr_nonneg h
  have g : ∀ x, |rnd (1000 * x) / 1000 - x| ≤ u * |x| := by
    intro x
    have := h (1000 * x)
    rw [abs_mul, abs_of_pos (show (0 : ℝ) < 1000 by norm_num)] at this
    rw [show rnd (1000 * x) / 1000 - x = (rnd (1000 * x) - 1000 * x) / 1000 by ring, abs_div,
      abs_of_pos (show (0 : ℝ) < 1000 by norm_num), div_le_iff₀ (by norm_num)]
    linarith
  have g1 := g x
  have g2 := g y
  obtain ⟨c1, c2⟩ := sameCell_close hc
  have tri : |x - y| ≤ |rnd (1000 * x) / 1000 - x| + |rnd (1000 * x) / 1000 - rnd (1000 * y) / 1000| + |rnd (1000 * y) / 1000 - y| := by
    have e : x - y = -(rnd (1000 * x) / 1000 - x) + (rnd (1000 * x) / 1000 - rnd (1000 * y) / 1000) + (rnd (1000 * y) / 1000 - y) := by
      ring
    rw [e]
    refine (abs_add_three _ _ _).trans ?_
    rw [abs_neg]
  constructor
  · linarith
  · intro hx
    have : 1 / 1000 ≤ |rnd (1000 * x) / 1000| := by
      have a := abs_sub_abs_le_abs_sub x (rnd (1000 * x) / 1000)
      rw [abs_sub_comm] at a
      linarith
    linarith [c2 this]

/-- Away from the borders of cells rounding does not change the cell. -/
theorem trunc_eq (hu : u ≤ 1) {z z' : ℝ} (h : |z' - z| ≤ u * |z|) (hz : ∀ k : ℤ, k ≠ 0 → u * |z| < |z - k|) : trunc z' = trunc z := by
  have hh := abs_le.1 h
  unfold trunc
  rcases le_or_gt 0 z with h0 | h0
  · rw [abs_of_nonneg h0] at hh hz
    have h1 : u * z ≤ 1 * z := mul_le_mul_of_nonneg_right hu h0
    have h0' : 0 ≤ z' := by linarith
    rw [if_pos h0, if_pos h0', Int.floor_eq_iff]
    have l := Int.floor_le z
    have g := Int.lt_floor_add_one z
    have n0 : 0 ≤ ⌊z⌋ := Int.floor_nonneg.2 h0
    constructor
    · rcases eq_or_ne ⌊z⌋ 0 with e | e
      · rw [e]; simpa using h0'
      · have := hz _ e
        rw [abs_of_nonneg (by linarith)] at this
        linarith
    · have := hz (⌊z⌋ + 1) (by omega)
      push_cast at this
      rw [abs_of_neg (by linarith)] at this
      linarith
  · rw [abs_of_neg h0] at hh hz
    have h1 : u * -z ≤ 1 * -z := mul_le_mul_of_nonneg_right hu (by linarith)
    have h0' : z' ≤ 0 := by linarith
    have c1 := Int.le_ceil z
    have c2 := Int.ceil_lt_add_one z
    have n0 : ⌈z⌉ ≤ 0 := Int.ceil_le.2 (by simpa using h0.le)
    have key : ⌈z'⌉ = ⌈z⌉ := by
      rw [Int.ceil_eq_iff]
      constructor
      · have := hz (⌈z⌉ - 1) (by omega)
        push_cast at this
        rw [abs_of_pos (by linarith)] at this
        linarith
      · rcases eq_or_ne ⌈z⌉ 0 with e | e
        · rw [e]; simpa using h0'
        · have := hz _ e
          rw [abs_of_nonpos (by linarith)] at this
          linarith
    rw [if_neg (not_le.2 h0)]
    split_ifs with hp
    · have e0 : z' = 0 := le_antisymm h0' hp
      rw [e0] at key ⊢
      rw [← key]; simp
    · exact key

theorem filterLoop_eq {vs : List Vec3} (hv : ∀ v ∈ vs, cellKey rnd v = Mesh.cellKey v) (pts : List Vec3)
    (xyz : List ((ℤ × ℤ × ℤ) × ℕ)) (imap : List ℕ) : filterLoop rnd vs pts xyz imap = Mesh.filterLoop vs pts xyz imap := by
  induction vs generalizing pts xyz imap with
  | nil => rfl
  | cons v vs ih =>
    have ih := ih fun w hw => hv w (List.mem_cons_of_mem _ hw)
    unfold filterLoop Mesh.filterLoop
    rw [hv v List.mem_cons_self]
    simp only [ih]
    rfl

/-- A component of a computed cross product. -/
theorem cross_component (h : RelErr u rnd) (hu : u ≤ 1 / 1000) {a b c d a' b' c' d' : ℝ} (ha : |a' - a| ≤ u * |a|)
    (hb : |b' - b| ≤ u * |b|) (hc : |c' - c| ≤ u * |c|) (hd : |d' - d| ≤ u * |d|) :
    |rnd (rnd (a' * b') - rnd (c' * d')) - (a * b - c * d)| ≤ 4.02 * u * (|a| * |b| + |c| * |d|) := by
  have hu0 := relErr_nonneg h
  have prod : ∀ {a b a' b' : ℝ}, |a' - a| ≤ u * |a| → |b' - b| ≤ u * |b| → |rnd (a' * b') - a * b| ≤ 3.01 * u * (|a| * |b|) := by
    intro a b a' b' ha hb
    have n : 0 ≤ |a| * |b| := by positivity
    have e : a' * b' - a * b = (a' - a) * (b' - b) + a * (b' - b) + (a' - a) * b := by ring
    have p : |a' * b' - a * b| ≤ 2.001 * u * (|a| * |b|) := by
      rw [e]
      refine (abs_add_three _ _ _).trans ?_
      rw [abs_mul, abs_mul, abs_mul]
      have h1 : |a' - a| * |b' - b| ≤ (u * |a|) * (u * |b|) := mul_le_mul ha hb (abs_nonneg _) (by positivity)
      have h2 : |a| * |b' - b| ≤ |a| * (u * |b|) := mul_le_mul_of_nonneg_left hb (abs_nonneg _)
      have h3 : |a' - a| * |b| ≤ (u * |a|) * |b| := mul_le_mul_of_nonneg_right ha (abs_nonneg _)
      have h4 : u * (u * (|a| * |b|)) ≤ 1 / 1000 * (u * (|a| * |b|)) := mul_le_mul_of_nonneg_right hu (by positivity)
      linarith
    have q := h (a' * b')
    have m : |a' * b'| ≤ |a| * |b| + 2.001 * u * (|a| * |b|) := by
      have := abs_sub_abs_le_abs_sub (a' * b') (a * b)
      rw [abs_mul a b] at this
      linarith
    have m' : u * |a' * b'| ≤ u * (|a| * |b| + 2.001 * u * (|a| * |b|)) := mul_le_mul_of_nonneg_left m hu0
    have h4 : u * (u * (|a| * |b|)) ≤ 1 / 1000 * (u * (|a| * |b|)) := mul_le_mul_of_nonneg_right hu (by positivity)
    have t := abs_sub_le (rnd (a' * b')) (a' * b') (a * b)
    have := mul_nonneg hu0 n
    linarith
  have p1 := prod ha hb
  have p2 := prod hc hd
  set x := rnd (a' * b')
  set y := rnd (c' * d')
  have s : |x - y - (a * b - c * d)| ≤ 3.01 * u * (|a| * |b| + |c| * |d|) := by
    rw [show x - y - (a * b - c * d) = (x - a * b) - (y - c * d) by ring]
    have := abs_sub (x - a * b) (y - c * d)
    linarith
  have m : |x - y| ≤ (|a| * |b| + |c| * |d|) + 3.01 * u * (|a| * |b| + |c| * |d|) := by
    have h1 := abs_sub_abs_le_abs_sub (x - y) (a * b - c * d)
    have h2 := abs_sub (a * b) (c * d)
    rw [abs_mul, abs_mul] at h2
    linarith
  have n : 0 ≤ |a| * |b| + |c| * |d| := by positivity
  have m' : u * |x - y| ≤ u * ((|a| * |b| + |c| * |d|) + 3.01 * u * (|a| * |b| + |c| * |d|)) := mul_le_mul_of_nonneg_left m hu0
  have h4 : u * (u * (|a| * |b| + |c| * |d|)) ≤ 1 / 1000 * (u * (|a| * |b| + |c| * |d|)) :=
    mul_le_mul_of_nonneg_right hu (by positivity)
  have q := h (x - y)
  have t := abs_sub_le (rnd (x - y)) (x - y) (a * b - c * d)
  have := mul_nonneg hu0 n
  linarith

/-- Two components of each of two vectors. -/
theorem two_len (f g : Fin 3 → ℝ) {i j : Fin 3} (hij : i ≠ j) : |f i| * |g j| + |f j| * |g i| ≤ len f * len g := by
  have sq : ∀ f : Fin 3 → ℝ, |f i| ^ 2 + |f j| ^ 2 ≤ len f ^ 2 := by
    intro f
    have : len f ^ 2 = ∑ k, f k ^ 2 := Real.sq_sqrt (Finset.sum_nonneg fun k _ => sq_nonneg _)
    rw [this, sq_abs, sq_abs]
    have := Finset.sum_le_sum_of_subset_of_nonneg (Finset.subset_univ {i, j}) (f := fun k => f k ^ 2) fun k _ _ => sq_nonneg _
    rwa [Finset.sum_pair hij] at this
  have n : ∀ f : Fin 3 → ℝ, 0 ≤ len f := fun f => Real.sqrt_nonneg _
  refine abs_le_of_sq_le_sq' ?_ (mul_nonneg (n f) (n g)) |>.2
  have h1 : (|f i| * |g j| + |f j| * |g i|) ^ 2 ≤ (|f i| ^ 2 + |f j| ^ 2) * (|g i| ^ 2 + |g j| ^ 2) := by
    have := sq_nonneg (|f i| * |g i| - |f j| * |g j|)
    linarith
  refine h1.trans ?_
  rw [mul_pow]
  exact mul_le_mul (sq f) (sq g) (by positivity) (by positivity)

/-- The computed cross product of two edges. -/
theorem cross_edges (h : RelErr u rnd) (hu : u ≤ 1 / 1000) (p1 p2 p3 : Vec3) :
    len (V (cross rnd (sub rnd p3 p1) (sub rnd p2 p1)) - V ((p3 - p1).cross (p2 - p1))) ≤
      7 * u * (Spec.dist p3 p1 * Spec.dist p2 p1) := by
  have hu0 := relErr_nonneg h
  rw [dist_eq_len, dist_eq_len]
  set f := V p3 - V p1 with hf
  set g := V p2 - V p1 with hg
  have n : 0 ≤ len f * len g := mul_nonneg (Real.sqrt_nonneg _) (Real.sqrt_nonneg _)
  have e : ∀ x, |rnd x - x| ≤ u * |x| := h
  have key : ∀ i j : Fin 3, i ≠ j →
      |rnd (rnd (rnd (f i) * rnd (g j)) - rnd (rnd (f j) * rnd (g i))) - (f i * g j - f j * g i)| ≤ 4.02 * u * (len f * len g) := by
    intro i j hij
    refine (cross_component h hu (e _) (e _) (e _) (e _)).trans ?_
    exact mul_le_mul_of_nonneg_left (two_len f g hij) (by positivity)
  have c : ∀ i, |(V (cross rnd (sub rnd p3 p1) (sub rnd p2 p1)) - V ((p3 - p1).cross (p2 - p1))) i| ≤
      4.02 * u * (len f * len g) := by
    intro i
    fin_cases i
    · exact key 1 2 (by decide)
    · exact key 2 0 (by decide)
    · exact key 0 1 (by decide)
  have l := len_mono (g := fun _ => 4.02 * u * (len f * len g)) c
  refine l.trans ?_
  unfold len
  rw [Fin.sum_univ_three]
  refine (Real.sqrt_le_left (by positivity)).2 ?_
  change (4.02 * u * (len f * len g)) ^ 2 + (4.02 * u * (len f * len g)) ^ 2 + (4.02 * u * (len f * len g)) ^ 2 ≤ (7 * u * (len f * len g)) ^ 2
  have := sq_nonneg (u * (len f * len g))
  linarith

/-- The direction of a vector that is close to another. -/
theorem unit_near {c c' n : Vec3} (hn : UnitAlong c n) {e : ℝ} (he : len (V c' - V c) ≤ e * len (V c)) (h1 : e < 1) :
    ∃ n', UnitAlong c' n' ∧ len (V n' - V n) ≤ 2 * e := by
  have un := unit_len hn
  obtain ⟨-, l, hl, hx, hy, hz⟩ := hn
  have hc : V c = l • V n := by
    funext i
    fin_cases i
    · exact hx
    · exact hy
    · exact hz
  have hcl : len (V c) = l := by rw [hc, len_smul, un, abs_of_pos hl, mul_one]
  rw [hcl] at he
  have t1 : len (V c) ≤ len (V c') + len (V c' - V c) := by
    have := Chains.len_sub (V c') (V c' - V c)
    rwa [sub_sub_cancel] at this
  have t2 : len (V c') ≤ len (V c) + len (V c' - V c) := by
    have := len_add (V c) (V c' - V c)
    rwa [add_sub_cancel] at this
  rw [hcl] at t1 t2
  have el : e * l < 1 * l := mul_lt_mul_of_pos_right h1 hl
  have pos : 0 < len (V c') := by linarith
  set L := len (V c') with hL
  have sqL : c'.x ^ 2 + c'.y ^ 2 + c'.z ^ 2 = L ^ 2 := by
    rw [hL, len, Real.sq_sqrt (Finset.sum_nonneg fun k _ => sq_nonneg _), Fin.sum_univ_three]
    rfl
  have un' : UnitAlong c' ⟨c'.x / L, c'.y / L, c'.z / L⟩ := by
    refine ⟨?_, L, pos, ?_, ?_, ?_⟩
    · show (c'.x / L) ^ 2 + (c'.y / L) ^ 2 + (c'.z / L) ^ 2 = 1
      rw [div_pow, div_pow, div_pow, ← add_div, ← add_div, sqL, div_self (by positivity)]
    · exact (mul_div_cancel₀ _ pos.ne').symm
    · exact (mul_div_cancel₀ _ pos.ne').symm
    · exact (mul_div_cancel₀ _ pos.ne').symm
  refine ⟨_, un', ?_⟩
  set n' : Vec3 := ⟨c'.x / L, c'.y / L, c'.z / L⟩ with hn'
  have un1 := unit_len un'
  have hc' : V c' = L • V n' := by
    funext i
    fin_cases i
    · exact (mul_div_cancel₀ _ pos.ne').symm
    · exact (mul_div_cancel₀ _ pos.ne').symm
    · exact (mul_div_cancel₀ _ pos.ne').symm
  have d : l • (V n' - V n) = (l - L) • V n' + (V c' - V c) := by
    rw [hc', hc, smul_sub, sub_smul]
    abel
  have s : l * len (V n' - V n) ≤ |l - L| + len (V c' - V c) := by
    have := len_add ((l - L) • V n') (V c' - V c)
    rw [← d, len_smul, len_smul, un1, mul_one, abs_of_pos hl] at this
    exact this
  have a : |l - L| ≤ e * l := abs_le.2 ⟨by linarith, by linarith⟩
  refine le_of_mul_le_mul_left ?_ hl
  linarith

/-- The computed normal. -/
theorem normal_err (h : RelErr u rnd) (hu : u ≤ 1 / 1000) {p1 p2 p3 n : Vec3} (hn : UnitAlong ((p3 - p1).cross (p2 - p1)) n) {σ : ℝ}
    (h0 : 0 < σ) (hs : σ * (Spec.dist p3 p1 * Spec.dist p2 p1) ≤ Spec.dist ((p3 - p1).cross (p2 - p1)) ⟨0, 0, 0⟩) (hσ : 8 * u ≤ σ) :
    len (V (normalized rnd (cross rnd (sub rnd p3 p1) (sub rnd p2 p1))) - V n) ≤ 14 * u / σ + 3.6 * u := by
  have hu0 := relErr_nonneg h
  have z : V (⟨0, 0, 0⟩ : Vec3) = 0 := by
    funext i
    fin_cases i <;> rfl
  rw [dist_eq_len ((p3 - p1).cross (p2 - p1)), z, sub_zero] at hs
  have ce := cross_edges h hu p1 p2 p3
  have he : len (V (cross rnd (sub rnd p3 p1) (sub rnd p2 p1)) - V ((p3 - p1).cross (p2 - p1))) ≤
      7 * u / σ * len (V ((p3 - p1).cross (p2 - p1))) := by
    refine ce.trans ?_
    have := mul_le_mul_of_nonneg_left hs (show 0 ≤ 7 * u / σ by positivity)
    refine le_trans (le_of_eq ?_) this
    field_simp
  have h1 : 7 * u / σ < 1 := by
    rw [div_lt_one h0]
    linarith
  obtain ⟨n', hn', hd⟩ := unit_near hn he h1
  have ne := RoundedBox.normalized_err h hu hn'
  have un := unit_len hn'
  have d : len (V (normalized rnd (cross rnd (sub rnd p3 p1) (sub rnd p2 p1))) - V n') ≤ 3.6 * u := by
    have := len_mono (f := V (normalized rnd (cross rnd (sub rnd p3 p1) (sub rnd p2 p1))) - V n')
      (g := (3.6 * u) • fun i => |V n' i|) (by
        intro i
        fin_cases i
        · exact ne.1
        · exact ne.2.1
        · exact ne.2.2)
    rw [len_smul, len_abs, un, mul_one, abs_of_nonneg (by positivity)] at this
    exact this
  have t := len_add (V (normalized rnd (cross rnd (sub rnd p3 p1) (sub rnd p2 p1))) - V n') (V n' - V n)
  rw [sub_add_sub_cancel] at t
  have : 2 * (7 * u / σ) = 14 * u / σ := by ring
  linarith

theorem valid_map {f : Vec3 → Vec3} {ps : List Vec3} {ts : List TriI} (h : Valid ps ts) : Valid (ps.map f) ts := by
  unfold Valid at h ⊢
  simpa using h

theorem of_valid_map {f : Vec3 → Vec3} {ps : List Vec3} {ts : List TriI} (h : Valid (ps.map f) ts) : Valid ps ts := by
  unfold Valid at h ⊢
  simpa using h

theorem map_ok {α β : Type} {f : α → β} {x : Exec α} {b : β} (h : x.map f = .ok b) : ∃ a, x = .ok a ∧ b = f a := by
  rcases x with e | a
  · simp [Except.map] at h
  · simp only [Except.map, Except.ok.injEq] at h
    exact ⟨a, rfl, h.symm⟩

theorem range_cellPoint (h : RelErr u rnd) {p : Vec3} (hp : RoundedIntRange u p) : InIntRange (cellPoint rnd p) := by
  have key : ∀ x : ℝ, (1 + u) * |1000 * x| < 2 ^ 31 → |1000 * (rnd (1000 * x) / 1000)| < 2 ^ 31 := by
    intro x hx
    rw [show 1000 * (rnd (1000 * x) / 1000) = rnd (1000 * x) by ring]
    have := h (1000 * x)
    have := abs_sub_abs_le_abs_sub (rnd (1000 * x)) (1000 * x)
    linarith
  exact ⟨key _ hp.1, key _ hp.2.1, key _ hp.2.2⟩

theorem cell_iff {p q : Vec3} : SameCell3 (cellPoint rnd p) (cellPoint rnd q) ↔ SameRoundedCell rnd p q := by
  rw [← Mesh.key_eq_iff]
  have : ∀ x : ℝ, 1000 * (x / 1000) = x := fun x => by ring
  simp only [Mesh.key, cellPoint, this, Prod.mk.injEq, SameRoundedCell]

theorem move (h : RelErr u rnd) {p q : Vec3} (hc : SameCell3 (cellPoint rnd p) (cellPoint rnd q)) : CellMove3 u p q :=
  ⟨cell_close h hc.1, cell_close h hc.2.1, cell_close h hc.2.2⟩

theorem soup_of_valid {ps : List Vec3} {ts : List TriI} (h : Valid ps ts) : ∃ l, soup ps ts = some l := by
  obtain ⟨l, hl⟩ := Mesh.soup_valid h
  exact ⟨_, Mesh.mapM_corners_soup.1 hl⟩

theorem radius_nonneg {ps : List Vec3} {r : ℝ} (h : IsRadius ps r) : 0 ≤ r := by
  rcases h.2 with ⟨p, -, e⟩ | ⟨-, e⟩
  · rw [← e]; exact Real.sqrt_nonneg _
  · exact e.ge

theorem sq_again (rnd : ℝ → ℝ) (m : Mesh) :
    (getSquaredMaxRadius rnd (getSquaredMaxRadius rnd m).1).2 = (getSquaredMaxRadius rnd m).2 := by
  by_cases h : m.maxR2 = 0
  · by_cases h' : m.points.foldl (fun acc p => max acc (length2 rnd p)) 0 = 0 <;> simp [getSquaredMaxRadius, h, h']
  · simp [getSquaredMaxRadius, h]

theorem again (rnd : ℝ → ℝ) (m : Mesh) : (getMaxRadius rnd (getMaxRadius rnd m).1).2 = (getMaxRadius rnd m).2 := by
  by_cases h : m.maxR = 0
  · by_cases h' : rnd (Real.sqrt (getSquaredMaxRadius rnd m).2) = 0
    · have : (getSquaredMaxRadius rnd { (getSquaredMaxRadius rnd m).1 with maxR := 0 }).2 = (getSquaredMaxRadius rnd m).2 := by
        have := sq_again rnd m
        unfold getSquaredMaxRadius at this ⊢
        split_ifs at this ⊢ <;> simp_all
      simp [getMaxRadius, h, h', this]
    · simp [getMaxRadius, h, h']
  · simp [getMaxRadius, h]

end Geo.Rounded
