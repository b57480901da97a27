import Verif.Spec.Tools
import Verif.Lemmas.HeightMap
import Verif.Lemmas.Math

/-!
# Helper lemmas on the tools
-/

namespace Geo.Tools

open Spec

theorem range_snoc (n : ℕ) {α : Type} (init : α) (f : α → ℕ → Exec α) :
    (List.range (n + 1)).foldlM f init = (do f (← (List.range n).foldlM f init) n) := by
  rw [List.range_succ, List.foldlM_append]
  simp

/-- Writing a vector of length `n` from the back. -/
theorem fill_back (n : ℕ) (f : ℕ → ℝ) (k : ℕ) (hk : k ≤ n) :
    ∃ l, (List.range k).foldlM (init := List.replicate n 0) (fun (col : List ℝ) y => vset col (n - y - 1) (f y)) = .ok l ∧
      l.length = n ∧ ∀ i, i < n → n - k ≤ i → l.getD i 0 = f (n - 1 - i) := by
  induction k with
  | zero => exact ⟨_, rfl, by simp, fun i h1 h2 => by omega⟩
  | succ k ih =>
    obtain ⟨l, h1, h2, h3⟩ := ih (by omega)
    refine ⟨l.set (n - k - 1) (f k), ?_, by simpa using h2, ?_⟩
    · rw [range_snoc, h1]
      show vset l _ _ = _
      rw [vset, if_pos (by omega)]
    · intro i hi hki
      rw [List.getD_eq_getElem?_getD, List.getElem?_set]
      by_cases e : n - k - 1 = i
      · rw [if_pos e, if_pos (by omega)]
        simp only [Option.getD_some]
        congr 1
        omega
      · rw [if_neg e, ← List.getD_eq_getElem?_getD]
        exact h3 i hi (by omega)

theorem imageColumn_ok (img : GreyImage) (b : ℝ) (x : ℕ) :
    ∃ l, imageColumn img b x = .ok l ∧ l.length = img.rows ∧
      ∀ y, y < img.rows → l.getD y 0 = b * (1 - (img.data (img.rows - 1 - y) x).toNat / 255) := by
  obtain ⟨l, h1, h2, h3⟩ := fill_back img.rows (fun y => b - (img.data y x).toNat / 255 * b) img.rows le_rfl
  refine ⟨l, h1, h2, fun y hy => ?_⟩
  rw [h3 y hy (by omega)]
  ring

/-- Writing a vector from the front with rows that are computed without a fault. -/
theorem fill_front (n : ℕ) (g : ℕ → Exec (List ℝ)) (r : ℕ → List ℝ) (hg : ∀ x, g x = .ok (r x)) (k : ℕ) (hk : k ≤ n) :
    ∃ l, (List.range k).foldlM (init := List.replicate n ([] : List ℝ)) (fun map x => do vset map x (← g x)) = .ok l ∧
      l.length = n ∧ ∀ i, i < k → l[i]? = some (r i) := by
  induction k with
  | zero => exact ⟨_, rfl, by simp, fun i h1 => by omega⟩
  | succ k ih =>
    obtain ⟨l, h1, h2, h3⟩ := ih (by omega)
    refine ⟨l.set k (r k), ?_, by simpa using h2, ?_⟩
    · rw [range_snoc, h1]
      show (do vset l k (← g k)) = _
      rw [hg]
      show vset l k _ = _
      rw [vset, if_pos (by omega)]
    · intro i hi
      rw [List.getElem?_set]
      by_cases e : k = i
      · rw [if_pos e, if_pos (by omega), e]
      · rw [if_neg e]
        exact h3 i (by omega)

theorem imageGrid_ok (img : GreyImage) (b : ℝ) : ∃ grid, imageGrid img b = .ok grid ∧ Pictures img b grid := by
  choose r h1 h2 h3 using imageColumn_ok img b
  obtain ⟨l, g1, g2, g3⟩ := fill_front img.cols _ r h1 img.cols le_rfl
  refine ⟨l, g1, ⟨g2, ?_⟩, ?_⟩
  · intro row hrow
    obtain ⟨i, hi, rfl⟩ := List.getElem_of_mem hrow
    have := g3 i (by omega)
    rw [List.getElem?_eq_getElem hi, Option.some_inj] at this
    rw [this, h2]
  · intro x y hx hy
    have e : l.getD x [] = r x := by rw [List.getD_eq_getElem?_getD, g3 x hx]; rfl
    rw [height, e]
    exact h3 x y hy

theorem grey_le (c : UInt8) : 0 ≤ 1 - (c.toNat : ℝ) / 255 ∧ 1 - (c.toNat : ℝ) / 255 ≤ 1 := by
  have : (c.toNat : ℝ) ≤ 255 := by
    have := c.toNat_lt
    exact_mod_cast (by omega : c.toNat ≤ 255)
  have : (0 : ℝ) ≤ c.toNat := Nat.cast_nonneg _
  constructor
  · rw [sub_nonneg, div_le_one (by norm_num)]; assumption
  · have : 0 ≤ (c.toNat : ℝ) / 255 := by positivity
    linarith

theorem inRange {img : GreyImage} {o : Options} (h : PictureInRange img o) {grid : List (List ℝ)}
    (hg : Pictures img o.blockHeight grid) : GridInRange grid img.cols img.rows o.resolution := by
  obtain ⟨h1, h2, h3, h4, h5, h6⟩ := h
  have one : ∀ k n : ℕ, k ≤ n → 1000 * |o.resolution| * n < 2 ^ 31 → |1000 * (o.resolution * k)| < 2 ^ 31 := by
    intro k n hk hn
    rw [abs_mul, abs_mul, abs_of_pos (by norm_num : (0 : ℝ) < 1000), Nat.abs_cast, ← mul_assoc]
    refine lt_of_le_of_lt (mul_le_mul_of_nonneg_left ?_ (by positivity)) hn
    exact_mod_cast hk
  refine ⟨h3, fun x y hx hy => ⟨one _ _ hx h4, one _ _ hy h5⟩, fun x y => ?_⟩
  by_cases hx : x < img.cols ∧ y < img.rows
  · rw [hg.2 x y hx.1 hx.2, abs_mul, abs_mul, abs_of_pos (by norm_num : (0 : ℝ) < 1000)]
    obtain ⟨g1, g2⟩ := grey_le (img.data (img.rows - 1 - y) x)
    rw [abs_of_nonneg g1]
    refine lt_of_le_of_lt ?_ h6
    have := mul_le_mul_of_nonneg_left g2 (show 0 ≤ 1000 * |o.blockHeight| by positivity)
    linarith
  · rw [HeightMap.height_out hg.1 (by omega)]
    norm_num

theorem separated {img : GreyImage} {b : ℝ} (hb : 2.55e-8 < b) {grid : List (List ℝ)} (hg : Pictures img b grid) :
    Separated grid := by
  have key : ∀ x y, ∃ k : ℤ, height grid x y = b / 255 * k := by
    intro x y
    by_cases hx : x < img.cols ∧ y < img.rows
    · refine ⟨255 - (img.data (img.rows - 1 - y) x).toNat, ?_⟩
      rw [hg.2 x y hx.1 hx.2]
      push_cast
      ring
    · exact ⟨0, by rw [HeightMap.height_out hg.1 (by omega)]; simp⟩
  intro x y x' y' hne
  obtain ⟨k, hk⟩ := key x y
  obtain ⟨k', hk'⟩ := key x' y'
  rw [hk, hk'] at hne ⊢
  have hkk : k ≠ k' := fun e => hne (by rw [e])
  have h1 : (1 : ℝ) ≤ |(k : ℝ) - k'| := by
    have : (1 : ℤ) ≤ |k - k'| := Int.one_le_abs (sub_ne_zero.2 hkk)
    exact_mod_cast this
  rw [← mul_sub, abs_mul, abs_of_pos (show 0 < b / 255 by linarith)]
  have := mul_le_mul_of_nonneg_left h1 (show 0 ≤ b / 255 by linarith)
  linarith

/-- The pose of the tools is a translation. -/
theorem shift_apply (x y : ℝ) (p : Vec3) : (Transform3.ofXYZRPY x y 0 0 0 0).apply p = ⟨p.x + x, p.y + y, p.z⟩ := by
  simp [Transform3.ofXYZRPY, Transform3.apply, Mat3.setRPY, Mat3.mulVec]
  show (⟨_, _, _⟩ : Vec3) = _
  simp

open Classical in
/-- A loop with fuel that only gives `a` or runs out of fuel. -/
theorem unbounded_eq {α : Type} {f : ℕ → Exec α} {a : α} (h : ∀ n, f n = .error .hang ∨ f n = .ok a) {n : ℕ} (hn : f n = .ok a) :
    unbounded f = .ok a := by
  have hex : ∃ n, f n ≠ .error .hang := ⟨n, by rw [hn]; simp⟩
  unfold unbounded
  rw [dif_pos hex]
  exact (h _).resolve_left (Nat.find_spec hex)

theorem frame_iff (i : ℕ) : (i : ℝ) * 0.05 < 6.283 ↔ i < 126 := by
  constructor
  · intro h
    by_contra hc
    have : (126 : ℝ) ≤ i := by exact_mod_cast not_lt.1 hc
    linarith
  · intro h
    have : (i : ℝ) ≤ 125 := by exact_mod_cast (by omega : i ≤ 125)
    linarith

/-- The pose of a frame. (Device of the proofs.) -/
noncomputable def framePose (dist : ℝ) (i : ℕ) : Transform3 := Transform3.ofXYZRPY 0 0 dist (-1.57) (i * 0.05) 0

theorem kinect_all (dist : ℝ) (key : ℕ → Bool) (hk : ∀ i < 126, key i = false) : ∀ n i, i ≤ 126 →
    (kinectLoop dist key n i = .error .hang ∨
      kinectLoop dist key n i = .ok ((List.range' i (126 - i)).map (framePose dist))) ∧
    (126 - i < n → kinectLoop dist key n i = .ok ((List.range' i (126 - i)).map (framePose dist))) := by
  intro n
  induction n with
  | zero => exact fun i _ => ⟨.inl rfl, fun h => by omega⟩
  | succ n ih =>
    intro i hi
    rw [kinectLoop]
    by_cases h : i < 126
    · rw [if_pos ((frame_iff i).2 h)]
      obtain ⟨a, b⟩ := ih (i + 1) (by omega)
      have e : List.range' i (126 - i) = i :: List.range' (i + 1) (126 - (i + 1)) := by
        rw [show 126 - i = (126 - (i + 1)) + 1 by omega, List.range'_succ]
      simp only [hk i h, Bool.false_eq_true, if_false]
      constructor
      · rcases a with a | a
        · left; rw [a]; rfl
        · right; rw [a, e]; rfl
      · intro hn
        rw [b (by omega), e]
        rfl
    · rw [if_neg (fun c => h ((frame_iff i).1 c)), show 126 - i = 0 by omega]
      exact ⟨.inr rfl, fun _ => rfl⟩

theorem kinect_key (dist : ℝ) (key : ℕ → Bool) {k : ℕ} (hk : k < 126) (h0 : ∀ i < k, key i = false) (h1 : key k = true) :
    ∀ n i, i ≤ k →
    (kinectLoop dist key n i = .error .hang ∨
      kinectLoop dist key n i = .ok ((List.range' i (k + 1 - i)).map (framePose dist))) ∧
    (k - i < n → kinectLoop dist key n i = .ok ((List.range' i (k + 1 - i)).map (framePose dist))) := by
  intro n
  induction n with
  | zero => exact fun i _ => ⟨.inl rfl, fun h => by omega⟩
  | succ n ih =>
    intro i hi
    rw [kinectLoop, if_pos ((frame_iff i).2 (by omega))]
    by_cases h : i = k
    · subst h
      simp only [h1, if_true, show i + 1 - i = 1 by omega]
      exact ⟨.inr rfl, fun _ => rfl⟩
    · obtain ⟨a, b⟩ := ih (i + 1) (by omega)
      have e : List.range' i (k + 1 - i) = i :: List.range' (i + 1) (k + 1 - (i + 1)) := by
        rw [show k + 1 - i = (k + 1 - (i + 1)) + 1 by omega, List.range'_succ]
      simp only [h0 i (by omega), Bool.false_eq_true, if_false]
      constructor
      · rcases a with a | a
        · left; rw [a]; rfl
        · right; rw [a, e]; rfl
      · intro hn
        rw [b (by omega), e]
        rfl

theorem castUInt_ok {w : ℝ} (h0 : 0 ≤ w) (h1 : w < 2 ^ 32) : castUInt w = .ok ⌊w⌋₊ := by
  have ht : trunc w = ⌊w⌋ := if_pos h0
  unfold castUInt
  rw [ht, if_pos ⟨Int.floor_nonneg.2 h0, Int.floor_lt.2 (by exact_mod_cast h1)⟩]
  rfl

theorem castUInt_bad {w : ℝ} (h : w ≤ -1 ∨ 2 ^ 32 ≤ w) : castUInt w = .error .ub := by
  unfold castUInt
  rw [if_neg]
  rintro ⟨h1, h2⟩
  rcases h with h | h
  · rw [trunc, if_neg (by linarith)] at h1
    have : ⌈w⌉ ≤ -1 := Int.ceil_le.2 (by exact_mod_cast h)
    omega
  · rw [trunc, if_pos (by linarith [show (0 : ℝ) < 2 ^ 32 by norm_num])] at h2
    have : (2 ^ 32 : ℤ) ≤ ⌊w⌋ := Int.le_floor.2 (by exact_mod_cast h)
    omega

end Geo.Tools
