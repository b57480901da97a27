import Verif.Spec.Shapes
import Verif.Lemmas.Octree
import Verif.Lemmas.Mesh
import Verif.Lemmas.Sphere
import Mathlib.Data.List.Nodup

/-!
# Lemmas about cylinders and prisms
-/

namespace Geo

open Spec

namespace Shapes

/-! ## Loops -/

theorem loopFuel_steady {σ : Type} (limit : ℕ) (body : ℕ → σ → Exec σ) : ∀ (f i : ℕ) (s : σ),
    loopFuel limit body f i s ≠ .error .hang → loopFuel limit body (f + 1) i s = loopFuel limit body f i s
  | 0, _, _, h => absurd rfl h
  | f + 1, i, s, h => by
    rw [loopFuel] at h ⊢
    conv_rhs => rw [loopFuel]
    split_ifs at h ⊢ with hi
    · cases hb : body i s with
      | error e => rfl
      | ok s' =>
        rw [hb] at h
        exact loopFuel_steady limit body f _ s' h
    · rfl

theorem steady {σ : Type} (limit : ℕ) (body : ℕ → σ → Exec σ) (i : ℕ) (s : σ) :
    Steady fun f => loopFuel limit body f i s := fun f h => loopFuel_steady limit body f i s h

/-- A loop whose body succeeds is a fold. -/
theorem loop_ok {σ : Type} {limit : ℕ} {body : ℕ → σ → Exec σ} (step : ℕ → σ → σ) (hl : limit < 2 ^ 32) {a : ℕ}
    (hb : ∀ i s, a ≤ i → i < limit → body i s = .ok (step i s)) (s : σ) :
    loop a limit body s = .ok ((List.range' a (limit - a)).foldl (fun s i => step i s) s) := by
  have key : ∀ (k i : ℕ) (s : σ), a ≤ i → limit - i = k →
      loopFuel limit body (k + 1) i s = .ok ((List.range' i k).foldl (fun s i => step i s) s) := by
    intro k
    induction k with
    | zero =>
      intro i s _ hk
      rw [loopFuel, if_neg (by omega)]
      rfl
    | succ k ih =>
      intro i s ha hk
      rw [loopFuel, if_pos (by omega), hb i s ha (by omega)]
      show loopFuel limit body (k + 1) (u32 (i + 1)) (step i s) = _
      rw [show u32 (i + 1) = i + 1 from Nat.mod_eq_of_lt (by omega), ih (i + 1) (step i s) (by omega) (by omega)]
      rfl
  exact (steady limit body a s).eq (key (limit - a) a s le_rfl rfl) (by simp)

/-- A loop whose body succeeds up to an index at which it fails. -/
theorem loop_fail {σ : Type} {limit : ℕ} {body : ℕ → σ → Exec σ} {a b : ℕ} (hab : a ≤ b) (hl : b < limit) (h32 : b < 2 ^ 32)
    (hb : ∀ i s, a ≤ i → i < b → ∃ s', body i s = .ok s') (he : ∀ s, body b s = .error .ub) (s : σ) :
    loop a limit body s = .error .ub := by
  have key : ∀ (k i : ℕ) (s : σ), a ≤ i → i + k = b → loopFuel limit body (k + 1) i s = .error .ub := by
    intro k
    induction k with
    | zero =>
      intro i s _ hk
      obtain rfl : i = b := by omega
      rw [loopFuel, if_pos hl, he]
      rfl
    | succ k ih =>
      intro i s ha hk
      obtain ⟨s', h⟩ := hb i s ha (by omega)
      rw [loopFuel, if_pos (by omega), h]
      show loopFuel limit body (k + 1) (u32 (i + 1)) s' = _
      rw [show u32 (i + 1) = i + 1 from Nat.mod_eq_of_lt (by omega)]
      exact ih (i + 1) s' (by omega) (by omega)
  exact (steady limit body a s).eq (key (b - a) a s le_rfl (by omega)) (by simp)

/-! ## The triangles of a prism -/

/-- The triangles of the caps. (Helper.) -/
def caps (n : ℕ) : List TriI :=
  (List.range' 1 (n - 1 - 1)).flatMap fun i => [⟨0, 2 * i, 2 * i + 2⟩, ⟨1, 2 * i + 3, 2 * i + 1⟩]

/-- The triangles of the sides. (Helper.) -/
def sides (n : ℕ) : List TriI :=
  (List.range' 0 (n - 0)).flatMap fun i =>
    [⟨i * 2, i * 2 + 1, (i + 1) % n * 2⟩, ⟨i * 2 + 1, (i + 1) % n * 2 + 1, (i + 1) % n * 2⟩]

/-- The vertices. (Helper.) -/
noncomputable def ring (f : ℕ → Vec2) (n : ℕ) (h : ℝ) : List Vec3 :=
  (List.range' 0 (n - 0)).flatMap fun i => [⟨(f i).x, (f i).y, -h / 2⟩, ⟨(f i).x, (f i).y, h / 2⟩]

theorem next_cases {i n : ℕ} (h : i < n) : (i + 1 < n ∧ (i + 1) % n = i + 1) ∨ (i + 1 = n ∧ (i + 1) % n = 0) := by
  rcases Nat.lt_or_ge (i + 1) n with hi | hi
  · exact .inl ⟨hi, Nat.mod_eq_of_lt hi⟩
  · have : i + 1 = n := by omega
    exact .inr ⟨this, by rw [this, Nat.mod_self]⟩

theorem edges_caps (n : ℕ) : edges (caps n) = (List.range' 1 (n - 1 - 1)).flatMap fun i =>
    [(0, 2 * i), (2 * i, 2 * i + 2), (2 * i + 2, 0), (1, 2 * i + 3), (2 * i + 3, 2 * i + 1), (2 * i + 1, 1)] := by
  unfold edges caps
  rw [List.flatMap_assoc]
  rfl

theorem edges_sides (n : ℕ) : edges (sides n) = (List.range' 0 (n - 0)).flatMap fun i =>
    [(i * 2, i * 2 + 1), (i * 2 + 1, (i + 1) % n * 2), ((i + 1) % n * 2, i * 2),
      (i * 2 + 1, (i + 1) % n * 2 + 1), ((i + 1) % n * 2 + 1, (i + 1) % n * 2), ((i + 1) % n * 2, i * 2 + 1)] := by
  unfold edges sides
  rw [List.flatMap_assoc]
  rfl

theorem mem_caps {n : ℕ} {e : ℕ × ℕ} : e ∈ edges (caps n) ↔ ∃ i, 1 ≤ i ∧ i + 1 < n ∧
    (e = (0, 2 * i) ∨ e = (2 * i, 2 * i + 2) ∨ e = (2 * i + 2, 0) ∨ e = (1, 2 * i + 3) ∨ e = (2 * i + 3, 2 * i + 1) ∨
      e = (2 * i + 1, 1)) := by
  rw [edges_caps]
  simp only [List.mem_flatMap, List.mem_range'_1, List.mem_cons, List.not_mem_nil, or_false]
  constructor
  · rintro ⟨i, ⟨h1, h2⟩, h⟩
    exact ⟨i, h1, by omega, h⟩
  · rintro ⟨i, h1, h2, h⟩
    exact ⟨i, ⟨h1, by omega⟩, h⟩

theorem mem_sides {n : ℕ} {e : ℕ × ℕ} : e ∈ edges (sides n) ↔ ∃ i j, i < n ∧ ((i + 1 < n ∧ j = i + 1) ∨ (i + 1 = n ∧ j = 0)) ∧
    (e = (i * 2, i * 2 + 1) ∨ e = (i * 2 + 1, j * 2) ∨ e = (j * 2, i * 2) ∨ e = (i * 2 + 1, j * 2 + 1) ∨
      e = (j * 2 + 1, j * 2) ∨ e = (j * 2, i * 2 + 1)) := by
  rw [edges_sides]
  simp only [List.mem_flatMap, List.mem_range'_1, List.mem_cons, List.not_mem_nil, or_false]
  constructor
  · rintro ⟨i, ⟨h1, h2⟩, h⟩
    exact ⟨i, _, by omega, next_cases (by omega), h⟩
  · rintro ⟨i, j, h1, h2, h⟩
    refine ⟨i, ⟨by omega, by omega⟩, ?_⟩
    have : (i + 1) % n = j := by
      rcases next_cases h1 with ⟨a, b⟩ | ⟨a, b⟩ <;> omega
    rw [this]
    exact h

theorem pairwise_range' {R : ℕ → ℕ → Prop} {a k : ℕ} (h : ∀ i j, a ≤ i → i < j → j < a + k → R i j) :
    (List.range' a k).Pairwise R := by
  rw [List.pairwise_iff_getElem]
  intro i j hi hj hij
  simp only [List.length_range'] at hi hj
  simp only [List.getElem_range']
  exact h _ _ (by omega) (by omega) (by omega)

theorem nodup_caps (n : ℕ) : (edges (caps n)).Nodup := by
  rw [edges_caps, List.nodup_flatMap]
  constructor
  · intro i hi
    rw [List.mem_range'_1] at hi
    simp only [List.nodup_cons, List.mem_cons, Prod.mk.injEq, List.not_mem_nil, or_false, not_or, not_false_eq_true,
      List.nodup_nil, and_true]
    omega
  · refine pairwise_range' fun i j h1 h2 h3 => ?_
    rintro ⟨u, v⟩ h4 h5
    simp only [List.mem_cons, Prod.mk.injEq, List.not_mem_nil, or_false] at h4 h5
    omega

theorem nodup_sides {n : ℕ} (hn : 2 ≤ n) : (edges (sides n)).Nodup := by
  rw [edges_sides, List.nodup_flatMap]
  constructor
  · intro i hi
    rw [List.mem_range'_1] at hi
    have := next_cases (i := i) (n := n) (by omega)
    generalize (i + 1) % n = j at *
    simp only [List.nodup_cons, List.mem_cons, Prod.mk.injEq, List.not_mem_nil, or_false, not_or, not_false_eq_true,
      List.nodup_nil, and_true]
    omega
  · refine pairwise_range' fun i j h1 h2 h3 => ?_
    have a := next_cases (i := i) (n := n) (by omega)
    have b := next_cases (i := j) (n := n) (by omega)
    rintro ⟨u, v⟩ h4 h5
    simp only [List.mem_cons, Prod.mk.injEq, List.not_mem_nil, or_false] at h4 h5
    generalize (i + 1) % n = i' at *
    generalize (j + 1) % n = j' at *
    omega

theorem watertight_prism {n : ℕ} (hn : 2 ≤ n) : Watertight (caps n ++ sides n) := by
  have he : edges (caps n ++ sides n) = edges (caps n) ++ edges (sides n) := by simp [edges]
  unfold Watertight
  rw [he]
  refine ⟨List.Nodup.append (nodup_caps n) (nodup_sides hn) ?_, ?_⟩
  · rintro ⟨u, v⟩ h1 h2
    rw [mem_caps] at h1
    rw [mem_sides] at h2
    obtain ⟨i, a1, a2, a3⟩ := h1
    obtain ⟨k, j, b1, b2, b3⟩ := h2
    simp only [Prod.mk.injEq] at a3 b3
    omega
  · rintro ⟨u, v⟩ h
    rw [List.mem_append] at h ⊢
    constructor
    · rw [mem_caps, mem_sides] at h ⊢
      simp only [Prod.mk.injEq] at h ⊢
      rcases h with ⟨i, a1, a2, a3⟩ | ⟨i, j, b1, b2, b3⟩
      · rcases a3 with ⟨rfl, rfl⟩ | ⟨rfl, rfl⟩ | ⟨rfl, rfl⟩ | ⟨rfl, rfl⟩ | ⟨rfl, rfl⟩ | ⟨rfl, rfl⟩
        · -- (2i, 0)
          rcases Nat.lt_or_ge 1 i with h | h
          · exact .inl ⟨i - 1, by omega, by omega, by omega⟩
          · exact .inr ⟨0, 1, by omega, by omega, by omega⟩
        · exact .inr ⟨i, i + 1, by omega, by omega, by omega⟩
        · rcases Nat.lt_or_ge (i + 2) n with h | h
          · exact .inl ⟨i + 1, by omega, by omega, by omega⟩
          · exact .inr ⟨n - 1, 0, by omega, by omega, by omega⟩
        · rcases Nat.lt_or_ge (i + 2) n with h | h
          · exact .inl ⟨i + 1, by omega, by omega, by omega⟩
          · exact .inr ⟨n - 1, 0, by omega, by omega, by omega⟩
        · exact .inr ⟨i, i + 1, by omega, by omega, by omega⟩
        · rcases Nat.lt_or_ge 1 i with h | h
          · exact .inl ⟨i - 1, by omega, by omega, by omega⟩
          · exact .inr ⟨0, 1, by omega, by omega, by omega⟩
      · rcases b3 with ⟨rfl, rfl⟩ | ⟨rfl, rfl⟩ | ⟨rfl, rfl⟩ | ⟨rfl, rfl⟩ | ⟨rfl, rfl⟩ | ⟨rfl, rfl⟩
        · -- (2i+1, 2i): the side before
          rcases Nat.eq_zero_or_pos i with h | h
          · exact .inr ⟨n - 1, 0, by omega, by omega, by omega⟩
          · exact .inr ⟨i - 1, i, by omega, by omega, by omega⟩
        · exact .inr ⟨i, j, by omega, by omega, by omega⟩
        · -- (2i, 2j)
          rcases Nat.eq_zero_or_pos i with h | h
          · rcases Nat.lt_or_ge 2 n with h' | h'
            · exact .inl ⟨1, by omega, by omega, by omega⟩
            · exact .inr ⟨1, 0, by omega, by omega, by omega⟩
          · rcases b2 with ⟨b4, b5⟩ | ⟨b4, b5⟩
            · exact .inl ⟨i, by omega, by omega, by omega⟩
            · rcases Nat.lt_or_ge 2 n with h' | h'
              · exact .inl ⟨i - 1, by omega, by omega, by omega⟩
              · exact .inr ⟨0, 1, by omega, by omega, by omega⟩
        · -- (2j+1, 2i+1)
          rcases Nat.eq_zero_or_pos i with h | h
          · rcases Nat.lt_or_ge 2 n with h' | h'
            · exact .inl ⟨1, by omega, by omega, by omega⟩
            · exact .inr ⟨1, 0, by omega, by omega, by omega⟩
          · rcases b2 with ⟨b4, b5⟩ | ⟨b4, b5⟩
            · exact .inl ⟨i, by omega, by omega, by omega⟩
            · rcases Nat.lt_or_ge 2 n with h' | h'
              · exact .inl ⟨i - 1, by omega, by omega, by omega⟩
              · exact .inr ⟨0, 1, by omega, by omega, by omega⟩
        · rcases b2 with ⟨b4, b5⟩ | ⟨b4, b5⟩
          · rcases Nat.lt_or_ge (i + 2) n with h | h
            · exact .inr ⟨i + 1, i + 2, by omega, by omega, by omega⟩
            · exact .inr ⟨i + 1, 0, by omega, by omega, by omega⟩
          · exact .inr ⟨0, 1, by omega, by omega, by omega⟩
        · exact .inr ⟨i, j, by omega, by omega, by omega⟩
    · rw [mem_caps, mem_sides] at h
      simp only [Prod.mk.injEq] at h
      rcases h with ⟨i, a1, a2, a3⟩ | ⟨i, j, b1, b2, b3⟩ <;> simp only <;> omega

/-! ## The mesh -/

theorem valid_prism {n : ℕ} (hn : 2 ≤ n) : ∀ t ∈ caps n ++ sides n, t.i1 < 2 * n ∧ t.i2 < 2 * n ∧ t.i3 < 2 * n := by
  intro t ht
  simp only [List.mem_append, caps, sides, List.mem_flatMap, List.mem_range'_1, List.mem_cons, List.not_mem_nil, or_false] at ht
  rcases ht with ⟨i, hi, rfl | rfl⟩ | ⟨i, hi, h⟩
  · simp only; omega
  · simp only; omega
  · have := next_cases (i := i) (n := n) (by omega)
    generalize (i + 1) % n = j at *
    rcases h with rfl | rfl <;> simp only <;> omega

theorem length_flatMap_two {α β : Type} (f : α → List β) (h : ∀ a, (f a).length = 2) (l : List α) :
    (l.flatMap f).length = 2 * l.length := by
  induction l with
  | nil => rfl
  | cons a l ih => rw [List.flatMap_cons, List.length_append, ih, h, List.length_cons]; ring_nf

theorem length_prism {n : ℕ} (hn : 2 ≤ n) : (caps n ++ sides n).length = 4 * n - 4 := by
  rw [List.length_append, caps, sides, length_flatMap_two _ (fun _ => rfl), length_flatMap_two _ (fun _ => rfl),
    List.length_range', List.length_range']
  omega

theorem ring_length (f : ℕ → Vec2) (n : ℕ) (h : ℝ) : (ring f n h).length = 2 * n := by
  rw [ring, length_flatMap_two _ (fun _ => rfl), List.length_range', Nat.sub_zero]

theorem getElem?_flatMap_two {α β : Type} (f g : α → β) : ∀ (l : List α) (i : ℕ) (a : α), l[i]? = some a →
    (l.flatMap fun a => [f a, g a])[2 * i]? = some (f a) ∧ (l.flatMap fun a => [f a, g a])[2 * i + 1]? = some (g a)
  | [], i, a, h => by simp at h
  | b :: l, 0, a, h => by
    simp only [List.getElem?_cons_zero, Option.some.injEq] at h
    subst h
    simp
  | b :: l, i + 1, a, h => by
    simp only [List.getElem?_cons_succ] at h
    have := getElem?_flatMap_two f g l i a h
    rw [List.flatMap_cons]
    exact this

theorem ring_get (f : ℕ → Vec2) {n i : ℕ} (h : ℝ) (hi : i < n) :
    (ring f n h)[2 * i]? = some ⟨(f i).x, (f i).y, -h / 2⟩ ∧ (ring f n h)[2 * i + 1]? = some ⟨(f i).x, (f i).y, h / 2⟩ := by
  refine getElem?_flatMap_two (fun i => (⟨(f i).x, (f i).y, -h / 2⟩ : Vec3)) (fun i => ⟨(f i).x, (f i).y, h / 2⟩) _ i i ?_
  rw [List.getElem?_range' (by omega)]
  simp

theorem foldl_points (f : ℕ → Vec2) (h : ℝ) (step : ℕ → Mesh → Mesh) (hs : ∀ i m, step i m =
    ((m.addPoint ⟨(f i).x, (f i).y, -h / 2⟩).1.addPoint ⟨(f i).x, (f i).y, h / 2⟩).1) : ∀ (l : List ℕ) (m : Mesh),
    (l.foldl (fun m i => step i m) m).points =
      m.points ++ l.flatMap (fun i => [⟨(f i).x, (f i).y, -h / 2⟩, ⟨(f i).x, (f i).y, h / 2⟩]) ∧
    (l.foldl (fun m i => step i m) m).tris = m.tris
  | [], m => by simp
  | i :: l, m => by
    obtain ⟨a, b⟩ := foldl_points f h step hs l (step i m)
    rw [List.foldl_cons, a, b, hs]
    simp [Mesh.addPoint, Mesh.invalidateCache]

theorem foldl_tris (g : ℕ → List TriI) (step : ℕ → Mesh → Mesh) : ∀ (l : List ℕ) (m : Mesh),
    (∀ i ∈ l, ∀ m, (step i m).tris = m.tris ++ g i ∧ (step i m).points = m.points) →
    (l.foldl (fun m i => step i m) m).tris = m.tris ++ l.flatMap g ∧
    (l.foldl (fun m i => step i m) m).points = m.points
  | [], m, _ => by simp
  | i :: l, m, hs => by
    obtain ⟨a, b⟩ := foldl_tris g step l (step i m) (fun i hi => hs i (List.mem_cons_of_mem _ hi))
    rw [List.foldl_cons, a, b, (hs i List.mem_cons_self m).1, (hs i List.mem_cons_self m).2]
    simp

/-- The vertex with an index. (Helper.) -/
noncomputable def vertex (f : ℕ → Vec2) (h : ℝ) (k : ℕ) : Vec3 :=
  ⟨(f (k / 2)).x, (f (k / 2)).y, if k % 2 = 0 then -h / 2 else h / 2⟩

theorem ring_vertex (f : ℕ → Vec2) {n k : ℕ} (h : ℝ) (hk : k < 2 * n) : (ring f n h)[k]? = some (vertex f h k) := by
  obtain ⟨a, b⟩ := ring_get f h (i := k / 2) (n := n) (by omega)
  unfold vertex
  rcases Nat.mod_two_eq_zero_or_one k with hm | hm
  · rw [if_pos hm]
    rw [show 2 * (k / 2) = k by omega] at a
    exact a
  · rw [if_neg (by omega)]
    rw [show 2 * (k / 2) + 1 = k by omega] at b
    exact b

theorem ring_soup (f : ℕ → Vec2) {n : ℕ} (h : ℝ) {ts : List TriI}
    (hv : ∀ t ∈ ts, t.i1 < 2 * n ∧ t.i2 < 2 * n ∧ t.i3 < 2 * n) :
    soup (ring f n h) ts = some (ts.map fun t => (vertex f h t.i1, vertex f h t.i2, vertex f h t.i3)) := by
  rw [Mesh.soup_some, List.forall₂_map_right_iff, List.forall₂_same]
  intro t ht
  obtain ⟨a, b, c⟩ := hv t ht
  exact ⟨ring_vertex f h a, ring_vertex f h b, ring_vertex f h c⟩

theorem vertex_even (f : ℕ → Vec2) (h : ℝ) (i : ℕ) : vertex f h (2 * i) = ⟨(f i).x, (f i).y, -h / 2⟩ := by
  unfold vertex
  rw [if_pos (by omega), show 2 * i / 2 = i by omega]

theorem vertex_odd (f : ℕ → Vec2) (h : ℝ) (i : ℕ) : vertex f h (2 * i + 1) = ⟨(f i).x, (f i).y, h / 2⟩ := by
  unfold vertex
  rw [if_neg (by omega), show (2 * i + 1) / 2 = i by omega]

/-! ## Volume -/

/-- The cross product used in the area of the polygon. (Helper.) -/
def turn (a b : Vec2) : ℝ := b.x * a.y - b.y * a.x

theorem sum_flatMap_two {α β : Type} (v : β → ℝ) (f g : α → β) (l : List α) :
    ((l.flatMap fun a => [f a, g a]).map v).sum = (l.map fun a => v (f a) + v (g a)).sum := by
  induction l with
  | nil => rfl
  | cons a l ih =>
    rw [List.flatMap_cons, List.map_append, List.sum_append, ih]
    simp

theorem sum_caps (f : ℕ → Vec2) : ∀ k, ((List.range' 1 k).map fun i => turn (f 0) (f i) + turn (f i) (f (i + 1)) +
    turn (f (i + 1)) (f 0)).sum = ((List.range (k + 1)).map fun i => turn (f i) (f (i + 1))).sum + turn (f (k + 1)) (f 0)
  | 0 => by
    simp [turn]
    ring
  | k + 1 => by
    rw [List.range'_concat, List.map_append, List.sum_append, sum_caps f k, List.range_succ (n := k + 1), List.map_append,
      List.sum_append]
    simp [turn, Nat.add_comm 1 k]
    ring

theorem clockwise2_eq (f : ℕ → Vec2) {n : ℕ} (hn : 2 ≤ n) : clockwise2 f n =
    ((List.range (n - 1)).map fun i => turn (f i) (f (i + 1))).sum + turn (f (n - 1)) (f 0) := by
  obtain ⟨k, rfl⟩ : ∃ k, n = k + 1 := ⟨n - 1, by omega⟩
  unfold clockwise2
  rw [List.range_succ, List.map_append, List.sum_append]
  simp only [Nat.add_sub_cancel, List.map_cons, List.map_nil, List.sum_cons, List.sum_nil, add_zero, Nat.mod_self]
  congr 2
  apply List.map_congr_left
  intro i hi
  rw [List.mem_range] at hi
  rw [Nat.mod_eq_of_lt (by omega)]
  rfl

theorem sum_map_mul (l : List ℕ) (g : ℕ → ℝ) (c : ℝ) : (l.map fun i => c * g i).sum = c * (l.map g).sum := by
  induction l with
  | nil => simp
  | cons a l ih => simp only [List.map_cons, List.sum_cons, ih]; ring

theorem prism_volume (f : ℕ → Vec2) {n : ℕ} (hn : 2 ≤ n) (h : ℝ) :
    (((caps n ++ sides n).map fun t => (vertex f h t.i1, vertex f h t.i2, vertex f h t.i3)).map vol6).sum =
      6 * (clockwise2 f n / 2 * h) := by
  rw [List.map_map, List.map_append, List.sum_append, caps, sides, sum_flatMap_two, sum_flatMap_two]
  have e1 : ∀ i : ℕ, (vol6 ∘ fun t : TriI => (vertex f h t.i1, vertex f h t.i2, vertex f h t.i3)) ⟨0, 2 * i, 2 * i + 2⟩ +
      (vol6 ∘ fun t : TriI => (vertex f h t.i1, vertex f h t.i2, vertex f h t.i3)) ⟨1, 2 * i + 3, 2 * i + 1⟩ =
      h * (turn (f 0) (f i) + turn (f i) (f (i + 1)) + turn (f (i + 1)) (f 0)) := by
    intro i
    have a := vertex_even f h 0
    have b := vertex_odd f h 0
    have c := vertex_even f h (i + 1)
    have d := vertex_odd f h (i + 1)
    rw [show 2 * (i + 1) = 2 * i + 2 by ring] at c d
    simp only [Function.comp]
    rw [show (2 * i + 3) = 2 * i + 2 + 1 by ring, d, c, vertex_even, vertex_odd, show vertex f h 0 = _ from a,
      show vertex f h 1 = _ from b]
    simp only [vol6, turn]
    ring
  have e2 : ∀ i : ℕ, (vol6 ∘ fun t : TriI => (vertex f h t.i1, vertex f h t.i2, vertex f h t.i3))
        ⟨i * 2, i * 2 + 1, (i + 1) % n * 2⟩ +
      (vol6 ∘ fun t : TriI => (vertex f h t.i1, vertex f h t.i2, vertex f h t.i3))
        ⟨i * 2 + 1, (i + 1) % n * 2 + 1, (i + 1) % n * 2⟩ =
      2 * h * ((f ((i + 1) % n)).x * (f i).y - (f ((i + 1) % n)).y * (f i).x) := by
    intro i
    generalize (i + 1) % n = j
    simp only [Function.comp, Nat.mul_comm _ 2, vertex_even, vertex_odd]
    simp only [vol6]
    ring
  rw [List.map_congr_left (fun i _ => e1 i), List.map_congr_left (fun i _ => e2 i), sum_map_mul, sum_map_mul, sum_caps,
    show n - 1 - 1 + 1 = n - 1 by omega, ← clockwise2_eq f hn]
  rw [show List.range' 0 (n - 0) = List.range n by rw [List.range_eq_range', Nat.sub_zero]]
  change h * clockwise2 f n + 2 * h * clockwise2 f n = _
  ring

/-! ## Orientation -/

theorem prism_outward (f : ℕ → Vec2) {n : ℕ} (hn : 2 ≤ n) {h : ℝ} (hh : 0 ≤ h) (hc : ConvexClockwise f n) :
    ∀ c ∈ (caps n ++ sides n).map fun t => (vertex f h t.i1, vertex f h t.i2, vertex f h t.i3), ∀ q ∈ ring f n h,
      side c q ≤ 0 := by
  intro c hcm q hq
  obtain ⟨k, hk, hqk⟩ : ∃ k < n, q = ⟨(f k).x, (f k).y, -h / 2⟩ ∨ q = ⟨(f k).x, (f k).y, h / 2⟩ := by
    simp only [ring, List.mem_flatMap, List.mem_range'_1, List.mem_cons, List.not_mem_nil, or_false] at hq
    obtain ⟨k, hk, h⟩ := hq
    exact ⟨k, by omega, h⟩
  obtain ⟨t, ht, rfl⟩ := List.mem_map.1 hcm
  simp only [List.mem_append, caps, sides, List.mem_flatMap, List.mem_range'_1, List.mem_cons, List.not_mem_nil, or_false] at ht
  rcases ht with ⟨i, hi, h'⟩ | ⟨i, hi, h'⟩
  · have c0 := hc i (by omega) 0 (by omega)
    rw [Nat.mod_eq_of_lt (show i + 1 < n by omega)] at c0
    have m0 := mul_nonneg hh (neg_nonneg.2 c0)
    have a := vertex_even f h 0
    have b := vertex_odd f h 0
    have c := vertex_even f h (i + 1)
    have d := vertex_odd f h (i + 1)
    rw [show 2 * (i + 1) = 2 * i + 2 by ring] at c d
    rw [show 2 * 0 = 0 from rfl] at a
    rw [show 2 * 0 + 1 = 1 from rfl] at b
    rcases h' with rfl | rfl
    · simp only [c, vertex_even, a]
      rcases hqk with rfl | rfl <;> simp only [side] <;> linarith
    · rw [show (2 * i + 3) = 2 * i + 2 + 1 by ring]
      simp only [d, vertex_odd, b]
      rcases hqk with rfl | rfl <;> simp only [side] <;> linarith
  · have c0 := hc i (by omega) k hk
    have m0 := mul_nonneg hh (neg_nonneg.2 c0)
    generalize (i + 1) % n = j at *
    rcases h' with rfl | rfl <;> simp only [Nat.mul_comm _ 2, vertex_even, vertex_odd] <;>
      rcases hqk with rfl | rfl <;> simp only [side] <;> linarith

/-- All of it together. -/
theorem prism_of {m : Mesh} (f : ℕ → Vec2) {n : ℕ} (hn : 2 ≤ n) (h : ℝ) (hp : m.points = ring f n h)
    (ht : m.tris = caps n ++ sides n) : Prism m f n h := by
  have hs := ring_soup f h (valid_prism hn)
  refine ⟨⟨by rw [hp, ring_length], by rw [ht, length_prism hn]⟩, fun i hi => by rw [hp]; exact ring_get f h hi,
    by rw [ht]; exact valid_prism hn, by rw [ht]; exact watertight_prism hn, ?_, fun hc hh => ?_⟩
  · rw [hp, ht]
    exact ⟨_, hs, prism_volume f hn h⟩
  · rw [hp, ht]
    exact ⟨_, hs, prism_outward f hn hh hc⟩

theorem u32_small {n : ℕ} (h : n < 2 ^ 32) : u32 n = n := Nat.mod_eq_of_lt h

theorem predU_pos {bits n : ℕ} (h : 2 ≤ n) : predU bits n = n - 1 := if_neg (by omega)

theorem toInt32_small {k : ℕ} (h : k < 2 ^ 31) : toInt32 k = (k : ℤ) := by
  unfold toInt32
  simp only [h, if_true]

theorem asUInt_small {k : ℕ} (h : k < 2 ^ 31) : asUInt (k : ℤ) = k := by
  unfold asUInt
  omega

theorem intOp_small {k : ℕ} (h : k < 2 ^ 31) : intOp (k : ℤ) = .ok (k : ℤ) := by
  unfold intOp
  rw [if_pos (by omega)]

theorem ok_bind {α β : Type} (a : α) (f : α → Exec β) : ((.ok a : Exec α) >>= f) = f a := rfl

theorem ok_pure {α : Type} (a : α) : (pure a : Exec α) = .ok a := rfl

theorem error_bind {α β : Type} (e : Fault) (f : α → Exec β) : ((.error e : Exec α) >>= f) = .error e := rfl

theorem polygonCap_small {i : ℕ} (h : 2 * i + 3 < 2 ^ 31) (m : Mesh) : polygonCap i m =
    .ok ((m.addTriangle 0 (2 * i) (2 * i + 2)).addTriangle 1 (2 * i + 3) (2 * i + 1)) := by
  unfold polygonCap
  rw [u32_small (by omega), toInt32_small (by omega)]
  have e2 := intOp_small (k := 2 * i + 2) (by omega)
  have e3 := intOp_small (k := 2 * i + 3) (by omega)
  have e1 := intOp_small (k := 2 * i + 1) (by omega)
  have a0 := asUInt_small (k := 2 * i) (by omega)
  have a1 := asUInt_small (k := 2 * i + 1) (by omega)
  have a2 := asUInt_small (k := 2 * i + 2) (by omega)
  have a3 := asUInt_small (k := 2 * i + 3) (by omega)
  push_cast at e1 e2 e3 a0 a1 a2 a3 ⊢
  simp only [e1, e2, e3, a0, a1, a2, a3, ok_bind, ok_pure]

theorem polygonSide_small {n i : ℕ} (h : 2 * n ≤ 2 ^ 31) (hi : i < n) (m : Mesh) : polygonSide n i m =
    .ok ((m.addTriangle (i * 2) (i * 2 + 1) ((i + 1) % n * 2)).addTriangle (i * 2 + 1) ((i + 1) % n * 2 + 1)
      ((i + 1) % n * 2)) := by
  unfold polygonSide
  have := next_cases hi
  rw [u32_small (n := i + 1) (by omega)]
  generalize (i + 1) % n = j at *
  rw [u32_small (n := j) (by omega), toInt32_small (by omega), u32_small (by omega), u32_small (by omega)]
  have e0 := intOp_small (k := j * 2) (by omega)
  have e1 := intOp_small (k := j * 2 + 1) (by omega)
  have a0 := asUInt_small (k := j * 2) (by omega)
  have a1 := asUInt_small (k := j * 2 + 1) (by omega)
  push_cast at e0 e1 a0 a1
  rw [e0, ok_bind, e1, ok_bind, a0, a1, ok_pure]

/-! ## The meshes -/

theorem foldl_reachable {α : Type} {step : Mesh → α → Mesh} (hs : ∀ m a, Reachable m → Reachable (step m a)) :
    ∀ (l : List α) (m : Mesh), Reachable m → Reachable (l.foldl step m)
  | [], _, h => h
  | a :: l, m, h => foldl_reachable hs l (step m a) (hs m a h)

theorem cylinder_mesh (s : Shape) (radius height : ℝ) {n : ℕ} (hn : 2 ≤ n) (h32 : 2 * n ≤ 2 ^ 32) :
    ∃ s', createCylinder s radius height n = .ok s' ∧ s'.mesh.points = ring
      (fun i => ⟨Real.sin (2 * Real.pi * i / n) * radius, Real.cos (2 * Real.pi * i / n) * radius⟩) n height ∧
      s'.mesh.tris = caps n ++ sides n ∧ Reachable s'.mesh ∧ s'.bbValid = false := by
  unfold createCylinder
  rw [loop_ok (cylinderPoint radius height n) (by omega) (fun i s _ _ => rfl)]
  simp only [bind, Except.bind]
  rw [predU_pos hn, loop_ok (fun i (m : Mesh) =>
    (m.addTriangle 0 (u32 (2 * i)) (u32 (u32 (2 * i) + 2))).addTriangle 1 (u32 (u32 (2 * i) + 3)) (u32 (u32 (2 * i) + 1)))
      (by omega) (fun i s _ _ => rfl)]
  simp only
  rw [loop_ok (fun i (m : Mesh) => (m.addTriangle (u32 (i * 2)) (u32 (i * 2 + 1)) (u32 (u32 (i + 1) % n * 2))).addTriangle
    (u32 (i * 2 + 1)) (u32 (u32 (i + 1) % n * 2 + 1)) (u32 (u32 (i + 1) % n * 2))) (by omega) (fun i s _ _ => rfl)]
  refine ⟨_, rfl, ?_, ?_, ?_, rfl⟩
  rotate_left 2
  · exact foldl_reachable (fun m i hm => (hm.addTriangle _ _ _).addTriangle _ _ _) _ _
      (foldl_reachable (fun m i hm => (hm.addTriangle _ _ _).addTriangle _ _ _) _ _
        (foldl_reachable (fun m i hm => (hm.addPoint _).addPoint _) _ _ ⟨[], rfl⟩))
  all_goals
    obtain ⟨a1, a2⟩ := foldl_points
      (fun i => ⟨Real.sin (2 * Real.pi * i / n) * radius, Real.cos (2 * Real.pi * i / n) * radius⟩) height
      (cylinderPoint radius height n) (fun i m => rfl) (List.range' 0 (n - 0)) Mesh.new
    obtain ⟨b1, b2⟩ := foldl_tris (fun i => [⟨0, 2 * i, 2 * i + 2⟩, ⟨1, 2 * i + 3, 2 * i + 1⟩]) (fun i (m : Mesh) =>
      (m.addTriangle 0 (u32 (2 * i)) (u32 (u32 (2 * i) + 2))).addTriangle 1 (u32 (u32 (2 * i) + 3)) (u32 (u32 (2 * i) + 1)))
      (List.range' 1 (n - 1 - 1)) ((List.range' 0 (n - 0)).foldl (fun m i => cylinderPoint radius height n i m) Mesh.new)
      (by
        intro i hi m
        rw [List.mem_range'_1] at hi
        rw [u32_small (n := 2 * i) (by omega), u32_small (by omega), u32_small (by omega), u32_small (by omega)]
        simp [Mesh.addTriangle, Mesh.invalidateCache])
    obtain ⟨c1, c2⟩ := foldl_tris (fun i => [⟨i * 2, i * 2 + 1, (i + 1) % n * 2⟩,
        ⟨i * 2 + 1, (i + 1) % n * 2 + 1, (i + 1) % n * 2⟩]) (fun i (m : Mesh) =>
      (m.addTriangle (u32 (i * 2)) (u32 (i * 2 + 1)) (u32 (u32 (i + 1) % n * 2))).addTriangle (u32 (i * 2 + 1))
        (u32 (u32 (i + 1) % n * 2 + 1)) (u32 (u32 (i + 1) % n * 2))) (List.range' 0 (n - 0)) _
      (by
        intro i hi m
        rw [List.mem_range'_1] at hi
        have := next_cases (i := i) (n := n) (by omega)
        rw [u32_small (n := i + 1) (by omega)]
        generalize (i + 1) % n = j at *
        rw [u32_small (by omega), u32_small (by omega), u32_small (by omega), u32_small (by omega)]
        simp [Mesh.addTriangle, Mesh.invalidateCache])
    simp only [Shape.setMesh]
  · rw [c2, b2, a1]
    rfl
  · rw [c1, b1, a2]
    rfl

theorem polygon_mesh (s : Shape) (points : List Vec2) (height : ℝ) (hn : 2 ≤ points.length)
    (h31 : 2 * points.length ≤ 2 ^ 31) :
    ∃ s', createConvexPolygon s points height = .ok s' ∧
      s'.mesh.points = ring (fun i => points.getD i ⟨0, 0⟩) points.length height ∧
      s'.mesh.tris = caps points.length ++ sides points.length ∧ Reachable s'.mesh ∧ s'.bbValid = false := by
  set n := points.length with hl
  have hpts : points = (List.range' 0 (n - 0)).map fun i => points.getD i ⟨0, 0⟩ := by
    apply List.ext_getElem
    · simp [hl]
    · intro i h1 h2
      simp [h1]
  unfold createConvexPolygon
  rw [← hl, predU_pos hn]
  simp only [bind, Except.bind, pure, Except.pure]
  rw [loop_ok (fun i (m : Mesh) => (m.addTriangle 0 (2 * i) (2 * i + 2)).addTriangle 1 (2 * i + 3) (2 * i + 1)) (by omega)
    (fun i m h1 h2 => polygonCap_small (by omega) m)]
  simp only
  rw [loop_ok (fun i (m : Mesh) => (m.addTriangle (i * 2) (i * 2 + 1) ((i + 1) % n * 2)).addTriangle (i * 2 + 1)
    ((i + 1) % n * 2 + 1) ((i + 1) % n * 2)) (by omega) (fun i m h1 h2 => polygonSide_small h31 h2 m)]
  refine ⟨_, rfl, ?_, ?_, ?_, rfl⟩
  rotate_left 2
  · exact foldl_reachable (fun m i hm => (hm.addTriangle _ _ _).addTriangle _ _ _) _ _
      (foldl_reachable (fun m i hm => (hm.addTriangle _ _ _).addTriangle _ _ _) _ _
        (foldl_reachable (fun m i hm => (hm.addPoint _).addPoint _) _ _ ⟨[], rfl⟩))
  all_goals
    obtain ⟨a1, a2⟩ := foldl_points (fun i => points.getD i ⟨0, 0⟩) height
      (fun i m => ((m.addPoint ⟨(points.getD i ⟨0, 0⟩).x, (points.getD i ⟨0, 0⟩).y, -height / 2⟩).1.addPoint
        ⟨(points.getD i ⟨0, 0⟩).x, (points.getD i ⟨0, 0⟩).y, height / 2⟩).1) (fun i m => rfl) (List.range' 0 (n - 0)) Mesh.new
    obtain ⟨b1, b2⟩ := foldl_tris (fun i => [⟨0, 2 * i, 2 * i + 2⟩, ⟨1, 2 * i + 3, 2 * i + 1⟩]) (fun i (m : Mesh) =>
      (m.addTriangle 0 (2 * i) (2 * i + 2)).addTriangle 1 (2 * i + 3) (2 * i + 1))
      (List.range' 1 (n - 1 - 1)) (points.foldl (fun m p => ((m.addPoint ⟨p.x, p.y, -height / 2⟩).1.addPoint
        ⟨p.x, p.y, height / 2⟩).1) Mesh.new)
      (by intro i hi m; simp [Mesh.addTriangle, Mesh.invalidateCache])
    obtain ⟨c1, c2⟩ := foldl_tris (fun i => [⟨i * 2, i * 2 + 1, (i + 1) % n * 2⟩,
        ⟨i * 2 + 1, (i + 1) % n * 2 + 1, (i + 1) % n * 2⟩]) (fun i (m : Mesh) =>
      (m.addTriangle (i * 2) (i * 2 + 1) ((i + 1) % n * 2)).addTriangle (i * 2 + 1)
        ((i + 1) % n * 2 + 1) ((i + 1) % n * 2)) (List.range' 0 (n - 0)) _
      (by intro i hi m; simp [Mesh.addTriangle, Mesh.invalidateCache])
    have hfold : points.foldl (fun m p => ((m.addPoint ⟨p.x, p.y, -height / 2⟩).1.addPoint ⟨p.x, p.y, height / 2⟩).1) Mesh.new =
        (List.range' 0 (n - 0)).foldl (fun m i => ((m.addPoint ⟨(points.getD i ⟨0, 0⟩).x, (points.getD i ⟨0, 0⟩).y,
          -height / 2⟩).1.addPoint ⟨(points.getD i ⟨0, 0⟩).x, (points.getD i ⟨0, 0⟩).y, height / 2⟩).1) Mesh.new := by
      conv_lhs => rw [hpts]
      rw [List.foldl_map]
    simp only [Shape.setMesh]
  · rw [c2, b2, hfold, a1]
    rfl
  · rw [c1, b1, hfold, a2]
    rfl

theorem createCylinder_zero (s : Shape) (radius height : ℝ) {L : ℕ} (hL : predU 32 0 = L) (hL3 : L < 2 ^ 32) :
    ∃ s', createCylinder s radius height 0 = .ok s' ∧ s'.mesh.points = [] ∧ s'.mesh.tris.length = 2 * (L - 1) := by
  unfold createCylinder
  rw [hL]
  rw [loop_ok (cylinderPoint radius height 0) (by norm_num) (fun i s _ _ => rfl)]
  simp only [bind, Except.bind]
  rw [loop_ok (fun i (m : Mesh) =>
    (m.addTriangle 0 (u32 (2 * i)) (u32 (u32 (2 * i) + 2))).addTriangle 1 (u32 (u32 (2 * i) + 3)) (u32 (u32 (2 * i) + 1)))
      hL3 (fun i s _ _ => rfl)]
  simp only
  rw [loop_ok (fun i (m : Mesh) => (m.addTriangle (u32 (i * 2)) (u32 (i * 2 + 1)) (u32 (u32 (i + 1) % 0 * 2))).addTriangle
    (u32 (i * 2 + 1)) (u32 (u32 (i + 1) % 0 * 2 + 1)) (u32 (u32 (i + 1) % 0 * 2))) (by norm_num) (fun i s _ _ => rfl)]
  refine ⟨_, rfl, ?_⟩
  obtain ⟨b1, b2⟩ := foldl_tris (fun i => [⟨0, u32 (2 * i), u32 (u32 (2 * i) + 2)⟩, ⟨1, u32 (u32 (2 * i) + 3),
      u32 (u32 (2 * i) + 1)⟩]) (fun i (m : Mesh) =>
      (m.addTriangle 0 (u32 (2 * i)) (u32 (u32 (2 * i) + 2))).addTriangle 1 (u32 (u32 (2 * i) + 3)) (u32 (u32 (2 * i) + 1)))
      (List.range' 1 (L - 1)) Mesh.new (by intro i _ m; simp [Mesh.addTriangle, Mesh.invalidateCache])
  simp only [Shape.setMesh, Nat.sub_zero, List.range'_zero, List.foldl_nil]
  rw [b1, b2, List.length_append, length_flatMap_two _ (fun _ => rfl), List.length_range']
  exact ⟨rfl, Nat.zero_add _⟩

end Shapes

end Geo
