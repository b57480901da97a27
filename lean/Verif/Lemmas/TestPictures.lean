import Verif.Spec.TestPrograms
import Verif.Lemmas.DepthCameraRow
import Mathlib.Tactic.NormNum.Basic

/-!
# Lemmas about drawing scans, and about the grid of `test_geolib`
-/

namespace Geo.TestPrograms

open Spec

/-! ## Drawing -/

theorem castInt_floor {x : ℝ} {N : ℕ} (h0 : 0 ≤ x) (h1 : x < N) (hN : N ≤ 2 ^ 31) : castInt x = .ok ⌊x⌋ := by
  have hN' : (N : ℝ) ≤ 2 ^ 31 := by exact_mod_cast hN
  rw [castInt_real (by linarith) (by linarith), trunc_eq_floor h0]

/-- Marking a place inside the picture. -/
theorem mark_ok {im : Mat32F} {y x : ℝ} (hr : im.rows ≤ 2 ^ 31) (hc : im.cols ≤ 2 ^ 31) (y0 : 0 ≤ y) (y1 : y < im.rows)
    (x0 : 0 ≤ x) (x1 : x < im.cols) : ∃ im', mark im y x = .ok im' ∧ im'.rows = im.rows ∧ im'.cols = im.cols ∧
      ∀ i j : ℕ, (((i : ℝ) ≤ y ∧ y < i + 1 ∧ (j : ℝ) ≤ x ∧ x < j + 1) → im'.data i j = 1) ∧
        (¬ ((i : ℝ) ≤ y ∧ y < i + 1 ∧ (j : ℝ) ≤ x ∧ x < j + 1) → im'.data i j = im.data i j) := by
  have hy : ⌊y⌋ < im.rows := Int.floor_lt.2 (by exact_mod_cast y1)
  have hx : ⌊x⌋ < im.cols := Int.floor_lt.2 (by exact_mod_cast x1)
  have hcell : ∀ {i : ℕ} {z : ℝ}, (i : ℤ) = ⌊z⌋ ↔ (i : ℝ) ≤ z ∧ z < i + 1 := fun {i z} => by
    rw [eq_comm, Int.floor_eq_iff]
    push_cast
    rfl
  refine ⟨{ im with data := fun i j => if (i : ℤ) = ⌊y⌋ ∧ (j : ℤ) = ⌊x⌋ then 1 else im.data i j }, ?_, rfl, rfl, ?_⟩
  · unfold mark
    simp only [bind, Except.bind, castInt_floor y0 y1 hr, castInt_floor x0 x1 hc]
    rw [if_pos ⟨Int.floor_nonneg.2 y0, hy, Int.floor_nonneg.2 x0, hx⟩]
    rfl
  · intro i j
    simp only [hcell]
    refine ⟨fun h => if_pos ⟨⟨h.1, h.2.1⟩, h.2.2⟩, fun h => if_neg fun h' => h ⟨h'.1.1, h'.1.2, h'.2⟩⟩

/-- A failed drawing is undefined behaviour, any other keeps the size. -/
theorem mark_any (im : Mat32F) (y x : ℝ) :
    mark im y x = .error .ub ∨ ∃ im', mark im y x = .ok im' ∧ im'.rows = im.rows ∧ im'.cols = im.cols := by
  unfold mark
  have hcase : ∀ z : ℝ, castInt z = .error .ub ∨ castInt z = .ok (trunc z) := fun z => by
    unfold castInt
    split_ifs
    · exact .inr rfl
    · exact .inl rfl
  rcases hcase y with h | h <;> rcases hcase x with k | k <;> simp only [h, k, bind, Except.bind, pure, Except.pure, true_or]
  split_ifs
  · exact .inr ⟨_, rfl, rfl, rfl⟩
  · exact .inl rfl

/-- A row outside the picture. -/
theorem mark_row {im : Mat32F} {y x : ℝ} (hy : (im.rows : ℝ) ≤ y) : mark im y x = .error .ub := by
  rcases mark_any im y x with h | ⟨im', h, -⟩
  · exact h
  · exfalso
    unfold mark at h
    have hr : (im.rows : ℤ) ≤ trunc y := by
      rw [trunc_eq_floor ((Nat.cast_nonneg _).trans hy)]
      exact Int.le_floor.2 (by exact_mod_cast hy)
    unfold castInt at h
    simp only [bind, Except.bind, pure, Except.pure] at h
    split_ifs at h with h1 h2
    · dsimp only at h
      rw [if_neg (by rintro ⟨_, h3, _⟩; omega)] at h
      cases h

/-- A loop of which every step draws one place of the picture. -/
theorem draw_loop {α : Type _} (f : Mat32F → α → Exec Mat32F) (P : α → ℕ → ℕ → Prop) (rows cols : ℕ) (l : List α)
    (hf : ∀ a ∈ l, ∀ im : Mat32F, im.rows = rows → im.cols = cols → ∃ im', f im a = .ok im' ∧ im'.rows = rows ∧ im'.cols = cols ∧
      ∀ i j, i < rows → j < cols → (P a i j → im'.data i j = 1) ∧ (¬ P a i j → im'.data i j = im.data i j)) :
    ∀ im : Mat32F, im.rows = rows → im.cols = cols → ∃ im', l.foldlM f im = .ok im' ∧ im'.rows = rows ∧ im'.cols = cols ∧
      ∀ i j, i < rows → j < cols →
        ((∃ a ∈ l, P a i j) → im'.data i j = 1) ∧ (¬ (∃ a ∈ l, P a i j) → im'.data i j = im.data i j) := by
  induction l with
  | nil => exact fun im h1 h2 => ⟨im, rfl, h1, h2, fun i j _ _ => ⟨fun ⟨_, h, _⟩ => by simp at h, fun _ => rfl⟩⟩
  | cons a l ih =>
    intro im h1 h2
    obtain ⟨k, e1, e2, e3, e4⟩ := hf a (by simp) im h1 h2
    obtain ⟨k', g1, g2, g3, g4⟩ := ih (fun b hb => hf b (by simp [hb])) k e2 e3
    refine ⟨k', ?_, g2, g3, fun i j hi hj => ?_⟩
    · rw [List.foldlM_cons, e1]
      exact g1
    · obtain ⟨p1, p2⟩ := e4 i j hi hj
      obtain ⟨q1, q2⟩ := g4 i j hi hj
      constructor
      · rintro ⟨b, hb, hP⟩
        by_cases hl : ∃ a ∈ l, P a i j
        · exact q1 hl
        · rw [q2 hl]
          rcases List.mem_cons.1 hb with rfl | hb
          · exact p1 hP
          · exact absurd ⟨b, hb, hP⟩ hl
      · intro hn
        rw [q2 (fun ⟨b, hb, hP⟩ => hn ⟨b, by simp [hb], hP⟩)]
        exact p2 fun hP => hn ⟨a, by simp, hP⟩

/-- A loop one step of which leaves the picture. -/
theorem fail_loop {α : Type _} (f : Mat32F → α → Exec Mat32F) (rows cols : ℕ) (l : List α)
    (hf : ∀ a ∈ l, ∀ im : Mat32F, im.rows = rows → im.cols = cols →
      f im a = .error .ub ∨ ∃ im', f im a = .ok im' ∧ im'.rows = rows ∧ im'.cols = cols)
    {a : α} (ha : a ∈ l) (hb : ∀ im : Mat32F, im.rows = rows → im.cols = cols → f im a = .error .ub) :
    ∀ im : Mat32F, im.rows = rows → im.cols = cols → l.foldlM f im = .error .ub := by
  induction l with
  | nil => simp at ha
  | cons b l ih =>
    intro im h1 h2
    rw [List.foldlM_cons]
    rcases List.mem_cons.1 ha with rfl | ha'
    · rw [hb im h1 h2]; rfl
    · rcases hf b (by simp) im h1 h2 with h | ⟨k, h, k1, k2⟩
      · rw [h]; rfl
      · rw [h]
        exact ih (fun c hc => hf c (by simp [hc])) ha' k k1 k2

/-! ## The grid -/

/-- A square grid with the values `f`. (Helper.) -/
def IsGrid (n : ℕ) (g : List (List ℝ)) (f : ℕ → ℕ → ℝ) : Prop :=
  g.length = n ∧ ∀ a < n, ∃ row, g[a]? = some row ∧ row.length = n ∧ ∀ b < n, row[b]? = some (f a b)

theorem setCell_ok {n : ℕ} {g : List (List ℝ)} {f : ℕ → ℕ → ℝ} (hg : IsGrid n g f) {a b : ℕ} (ha : a < n) (hb : b < n) (h : ℝ) :
    ∃ g', setCell g a b h = .ok g' ∧ IsGrid n g' (fun x y => if x = a ∧ y = b then h else f x y) := by
  obtain ⟨h1, h2⟩ := hg
  obtain ⟨row, r1, r2, r3⟩ := h2 a ha
  refine ⟨g.set a (row.set b h), ?_, by simpa using h1, fun x hx => ?_⟩
  · unfold setCell
    simp only [vget, r1, bind, Except.bind, Tools.vset]
    rw [if_pos (by omega)]
    simp only
    rw [if_pos (by omega)]
  · by_cases hxa : x = a
    · subst hxa
      refine ⟨row.set b h, by rw [List.getElem?_set_self (by omega)], by simpa using r2, fun y hy => ?_⟩
      by_cases hyb : y = b
      · subst hyb
        rw [List.getElem?_set_self (by omega)]
        simp
      · rw [List.getElem?_set_ne (fun e => hyb e.symm), r3 y hy]
        simp [hyb]
    · obtain ⟨row', s1, s2, s3⟩ := h2 x hx
      refine ⟨row', by rw [List.getElem?_set_ne (fun e => hxa e.symm)]; exact s1, s2, fun y hy => ?_⟩
      rw [s3 y hy]
      simp [hxa]

theorem IsGrid.congr {n : ℕ} {g : List (List ℝ)} {f f' : ℕ → ℕ → ℝ} (hg : IsGrid n g f)
    (h : ∀ a < n, ∀ b < n, f a b = f' a b) : IsGrid n g f' := by
  refine ⟨hg.1, fun a ha => ?_⟩
  obtain ⟨row, r1, r2, r3⟩ := hg.2 a ha
  exact ⟨row, r1, r2, fun b hb => by rw [r3 b hb, h a ha b hb]⟩

/-- The cells that step `i` of pass `j` sets. (Helper.) -/
def Touched (n j i a b : ℕ) : Prop :=
  (a = i + j ∧ b = j) ∨ (a = i + j ∧ b = n - j - 1) ∨ (a = j ∧ b = i + j) ∨ (a = n - j - 1 ∧ b = i + j)

open Classical in
theorem ringStep_ok {n j i : ℕ} (hj : j < n / 2) (hi : i < n - j * 2) {g : List (List ℝ)} {f : ℕ → ℕ → ℝ} (hg : IsGrid n g f) :
    ∃ g', ringStep n j g i = .ok g' ∧ IsGrid n g' (fun a b => if Touched n j i a b then 0.1 * (j : ℝ) else f a b) := by
  obtain ⟨g1, e1, k1⟩ := setCell_ok hg (a := i + j) (b := j) (by omega) (by omega) (0.1 * (j : ℝ))
  obtain ⟨g2, e2, k2⟩ := setCell_ok k1 (a := i + j) (b := n - j - 1) (by omega) (by omega) (0.1 * (j : ℝ))
  obtain ⟨g3, e3, k3⟩ := setCell_ok k2 (a := j) (b := i + j) (by omega) (by omega) (0.1 * (j : ℝ))
  obtain ⟨g4, e4, k4⟩ := setCell_ok k3 (a := n - j - 1) (b := i + j) (by omega) (by omega) (0.1 * (j : ℝ))
  refine ⟨g4, ?_, k4.congr fun a _ b _ => ?_⟩
  · unfold ringStep
    simp only [bind, Except.bind, e1, e2, e3, e4]
  · unfold Touched
    by_cases c1 : a = n - j - 1 ∧ b = i + j
    · simp [c1]
    · by_cases c2 : a = j ∧ b = i + j
      · simp [c2]
      · by_cases c3 : a = i + j ∧ b = n - j - 1
        · simp [c3]
        · by_cases c4 : a = i + j ∧ b = j
          · simp [c4]
          · simp [c1, c2, c3, c4]

open Classical in
theorem ring_pass {n j : ℕ} (hj : j < n / 2) {g : List (List ℝ)} {f : ℕ → ℕ → ℝ} (hg : IsGrid n g f) : ∀ k ≤ n - j * 2,
    ∃ g', (List.range k).foldlM (ringStep n j) g = .ok g' ∧
      IsGrid n g' (fun a b => if ∃ i < k, Touched n j i a b then 0.1 * (j : ℝ) else f a b)
  | 0, _ => ⟨g, rfl, hg.congr fun a _ b _ => by simp⟩
  | k + 1, hk => by
    obtain ⟨g1, e1, k1⟩ := ring_pass hj hg k (by omega)
    obtain ⟨g2, e2, k2⟩ := ringStep_ok hj (i := k) (by omega) k1
    refine ⟨g2, ?_, k2.congr fun a _ b _ => ?_⟩
    · rw [List.range_succ, List.foldlM_append, e1]
      change (List.foldlM (ringStep n j) g1 [k]) = _
      rw [List.foldlM_cons, e2]
      rfl
    · by_cases c : Touched n j k a b
      · rw [if_pos c, if_pos ⟨k, by omega, c⟩]
      · rw [if_neg c]
        by_cases c' : ∃ i < k, Touched n j i a b
        · obtain ⟨i, hi, ht⟩ := c'
          rw [if_pos ⟨i, hi, ht⟩, if_pos ⟨i, by omega, ht⟩]
        · rw [if_neg c', if_neg]
          rintro ⟨i, hi, ht⟩
          rcases Nat.lt_succ_iff_lt_or_eq.1 hi with h | rfl
          · exact c' ⟨i, h, ht⟩
          · exact c ht

/-- A pass sets exactly the cells of its ring. -/
theorem touched_iff {n j a b : ℕ} (hj : j < n / 2) (ha : a < n) (hb : b < n) :
    (∃ i < n - j * 2, Touched n j i a b) ↔ ring n a b = j := by
  unfold ring Touched
  constructor
  · rintro ⟨i, hi, h | h | h | h⟩ <;> omega
  · intro h
    rcases (by omega : b = j ∨ b = n - j - 1 ∨ a = j ∨ a = n - j - 1) with e | e | e | e
    · exact ⟨a - j, by omega, .inl ⟨by omega, e⟩⟩
    · exact ⟨a - j, by omega, .inr (.inl ⟨by omega, e⟩)⟩
    · exact ⟨b - j, by omega, .inr (.inr (.inl ⟨e, by omega⟩))⟩
    · exact ⟨b - j, by omega, .inr (.inr (.inr ⟨e, by omega⟩))⟩

theorem pyramid_passes {n : ℕ} : ∀ k ≤ n / 2, ∃ g,
    (List.range k).foldlM (init := List.replicate n (List.replicate n (0 : ℝ))) (fun map j =>
      (List.range (n - j * 2)).foldlM (init := map) (ringStep n j)) = .ok g ∧
    IsGrid n g (fun a b => if ring n a b < k then 0.1 * (ring n a b : ℝ) else 0)
  | 0, _ => ⟨_, rfl, by simp, fun a ha => ⟨List.replicate n 0, by simp [ha], by simp, fun b hb => by simp [hb]⟩⟩
  | k + 1, hk => by
    classical
    obtain ⟨g1, e1, k1⟩ := pyramid_passes (n := n) k (by omega)
    obtain ⟨g2, e2, k2⟩ := ring_pass (j := k) (by omega) k1 (n - k * 2) le_rfl
    refine ⟨g2, ?_, k2.congr fun a ha b hb => ?_⟩
    · rw [List.range_succ, List.foldlM_append, e1]
      change (List.foldlM (fun map j => (List.range (n - j * 2)).foldlM (init := map) (ringStep n j)) g1 [k] : Exec _) = _
      rw [List.foldlM_cons, e2]
      rfl
    · simp only [touched_iff (show k < n / 2 by omega) ha hb]
      by_cases c : ring n a b = k
      · rw [if_pos c, if_pos (by omega), c]
      · rw [if_neg c]
        by_cases c' : ring n a b < k
        · rw [if_pos c', if_pos (by omega)]
        · rw [if_neg c', if_neg (by omega)]

end Geo.TestPrograms
