import Verif.Lemmas.HeightMapRay

/-!
# Helper lemmas for height maps: the mesh
-/

namespace Geo
open Spec

theorem foldlM_range {β : Type _} {f : β → ℕ → Exec β} (P : ℕ → β → Prop) {b : β} (n : ℕ) (h0 : P 0 b)
    (hs : ∀ i < n, ∀ s, P i s → ∃ s', f s i = .ok s' ∧ P (i + 1) s') :
    ∃ s', (List.range n).foldlM f b = .ok s' ∧ P n s' := by
  induction n with
  | zero => exact ⟨b, rfl, h0⟩
  | succ n ih =>
    obtain ⟨s, h1, h2⟩ := ih fun i hi => hs i (by omega)
    obtain ⟨s', h3, h4⟩ := hs n (by omega) s h2
    refine ⟨s', ?_, h4⟩
    rw [List.range_succ, List.foldlM_append, h1]
    simp [bind, Except.bind, h3, pure, Except.pure]

namespace HeightMap

/-- Adding a rectangle to a mesh. -/
noncomputable def addFace (res : ℝ) (m : Mesh) : Face → Mesh
  | .top x0 y0 x1 y1 h =>
    let r := addCorners m ⟨res * x0, res * y0, h⟩ ⟨res * x1, res * y0, h⟩ ⟨res * x0, res * y1, h⟩
      ⟨res * x1, res * y1, h⟩
    (r.1.addTriangle r.2.1 r.2.2.1 r.2.2.2.1).addTriangle r.2.2.1 r.2.2.2.2 r.2.2.2.1
  | .wallX x y0 y1 h h2 => quadX res x m y0 y1 h h2
  | .wallY y x0 x1 h h2 => quadY res y m x0 x1 h h2

/-- The mesh consists of these triangles, without spare points. -/
def Built (m : Mesh) (S : List (Vec3 × Vec3 × Vec3)) : Prop :=
  soup m.points m.tris = some S ∧ m.points.length = 2 * S.length ∧
    ∀ p ∈ m.points, ∃ t ∈ S, p = t.1 ∨ p = t.2.1 ∨ p = t.2.2

theorem built_quad {m : Mesh} {S : List (Vec3 × Vec3 × Vec3)} (hm : Built m S) (hl : m.points.length + 4 ≤ 2 ^ 32)
    (a b c d : Vec3) (i1 i2 i3 j1 j2 j3 : Fin 4)
    (hall : ∀ i : Fin 4, i = i1 ∨ i = i2 ∨ i = i3 ∨ i = j1 ∨ i = j2 ∨ i = j3) :
    let r := addCorners m a b c d
    let p : Fin 4 → ℕ := ![r.2.1, r.2.2.1, r.2.2.2.1, r.2.2.2.2]
    let q : Fin 4 → Vec3 := ![a, b, c, d]
    Built ((r.1.addTriangle (p i1) (p i2) (p i3)).addTriangle (p j1) (p j2) (p j3))
      (S ++ [(q i1, q i2, q i3), (q j1, q j2, q j3)]) := by
  intro r p q
  obtain ⟨h1, h2, h3⟩ := hm
  have hp : r.1.points = m.points ++ [a, b, c, d] := by
    simp [r, addCorners, Mesh.addPoint, Mesh.invalidateCache]
  have ht : r.1.tris = m.tris := by
    simp [r, addCorners, Mesh.addPoint, Mesh.invalidateCache]
  have hpi : ∀ i : Fin 4, (m.points ++ [a, b, c, d])[p i]? = some (q i) := by
    intro i
    have e : p i = m.points.length + i := by
      have u : ∀ k, k < 2 ^ 32 → u32 k = k := fun k hk => Nat.mod_eq_of_lt hk
      fin_cases i <;>
        simp [p, r, addCorners, Mesh.addPoint, Mesh.invalidateCache, List.length_append, u _ (show m.points.length < 2 ^ 32 by omega), u _ (show m.points.length + 1 < 2 ^ 32 by omega),
          u _ (show m.points.length + 2 < 2 ^ 32 by omega), u _ (show m.points.length + 3 < 2 ^ 32 by omega)]
    rw [e, List.getElem?_append_right (by omega)]
    fin_cases i <;> simp [q]
  refine ⟨?_, ?_, ?_⟩
  · have : soup (m.points ++ [a, b, c, d]) [⟨p i1, p i2, p i3⟩, ⟨p j1, p j2, p j3⟩] =
        some [(q i1, q i2, q i3), (q j1, q j2, q j3)] := by
      rw [Mesh.soup_some]
      exact .cons ⟨hpi _, hpi _, hpi _⟩ (.cons ⟨hpi _, hpi _, hpi _⟩ .nil)
    have g := Mesh.soup_append h1 this
    simp only [Mesh.addTriangle, Mesh.invalidateCache, hp, ht, List.append_assoc, List.cons_append, List.nil_append]
    exact g
  · simp only [Mesh.addTriangle, Mesh.invalidateCache, hp]
    simp [h2]; ring
  · intro x hx
    simp only [Mesh.addTriangle, Mesh.invalidateCache, hp] at hx
    rw [List.mem_append] at hx
    rcases hx with hx | hx
    · obtain ⟨t, ht, e⟩ := h3 x hx
      exact ⟨t, by simp [ht], e⟩
    · have : ∃ i : Fin 4, x = q i := by
        simp only [List.mem_cons, List.not_mem_nil, or_false] at hx
        rcases hx with rfl | rfl | rfl | rfl
        exacts [⟨0, rfl⟩, ⟨1, rfl⟩, ⟨2, rfl⟩, ⟨3, rfl⟩]
      obtain ⟨i, rfl⟩ := this
      rcases hall i with h | h | h | h | h | h <;> subst h
      · exact ⟨(q i, q i2, q i3), by simp, .inl rfl⟩
      · exact ⟨(q i1, q i, q i3), by simp, .inr (.inl rfl)⟩
      · exact ⟨(q i1, q i2, q i), by simp, .inr (.inr rfl)⟩
      · exact ⟨(q i, q j2, q j3), by simp, .inl rfl⟩
      · exact ⟨(q j1, q i, q j3), by simp, .inr (.inl rfl)⟩
      · exact ⟨(q j1, q j2, q i), by simp, .inr (.inr rfl)⟩

theorem built_face {m : Mesh} {S : List (Vec3 × Vec3 × Vec3)} (hm : Built m S) (hl : m.points.length + 4 ≤ 2 ^ 32)
    (res : ℝ) (f : Face) : Built (addFace res m f) (S ++ f.tris res) := by
  cases f with
  | top x0 y0 x1 y1 h => exact built_quad hm hl _ _ _ _ 0 1 2 1 3 2 (by decide)
  | wallX x y0 y1 h h2 => exact built_quad hm hl _ _ _ _ 1 2 0 2 1 3 (by decide)
  | wallY y x0 x1 h h2 => exact built_quad hm hl _ _ _ _ 2 1 0 1 2 3 (by decide)

theorem built_faces (res : ℝ) (F : List Face) : ∀ {m : Mesh} {S : List (Vec3 × Vec3 × Vec3)}, Built m S →
    m.points.length + 4 * F.length ≤ 2 ^ 32 → Built (F.foldl (addFace res) m) (S ++ F.flatMap (Face.tris res)) := by
  induction F with
  | nil => intro m S h _; simpa using h
  | cons f F ih =>
    intro m S h hl
    simp only [List.length_cons] at hl
    have h1 := built_face h (by omega) res f
    have hlen : (f.tris res).length = 2 := by cases f <;> rfl
    have := ih h1 (by rw [h1.2.1, List.length_append, hlen]; have := h.2.1; omega)
    simpa using this

theorem built_new : Built Mesh.new [] := by
  refine ⟨rfl, rfl, ?_⟩
  intro p hp
  simp [Mesh.new, Mesh.invalidateCache] at hp

/-! ## Tops -/

variable {grid : List (List ℝ)} {m n : ℕ}

theorem growRow_ok (hg : Rectangular grid m n) (h : ℝ) {y2 : ℕ} (hy : y2 < n) (c : ℕ) : ∀ (x2 max_x : ℕ),
    x2 + c = max_x → max_x ≤ m → ∃ r, growRow grid h y2 c x2 max_x = .ok r ∧ x2 ≤ r ∧ r ≤ max_x ∧
      (∀ x, x2 ≤ x → x < r → |height grid x y2 - h| ≤ 1e-10) ∧
      (|height grid x2 y2 - h| ≤ 1e-10 → 0 < c → x2 < r) ∧ (r = max_x ∨ 1e-10 < |height grid r y2 - h|) := by
  induction c with
  | zero => intro x2 max_x h1 h2; exact ⟨max_x, rfl, by omega, le_rfl, fun x a b => by omega, fun _ h => by omega, .inl rfl⟩
  | succ c ih =>
    intro x2 max_x h1 h2
    rw [growRow, cell_ok hg (by omega) hy]
    simp only [bind, Except.bind]
    by_cases hc : |height grid x2 y2 - h| > 1e-10
    · rw [if_pos hc]
      exact ⟨x2, rfl, le_rfl, by omega, fun x a b => by omega, fun h' => by linarith, .inr hc⟩
    · rw [if_neg hc]
      obtain ⟨r, g1, g2, g3, g4, g5, g6⟩ := ih (x2 + 1) max_x (by omega) h2
      refine ⟨r, g1, by omega, g3, fun x a b => ?_, fun _ _ => by omega, g6⟩
      rcases eq_or_lt_of_le a with rfl | a'
      · exact not_lt.1 hc
      · exact g4 x a' b

theorem growRect_ok (hg : Rectangular grid m n) (h : ℝ) {mx my : ℕ} (c : ℕ) : ∀ (y2 max_x : ℕ),
    y2 + c = n → mx < max_x → max_x ≤ m → my ≤ y2 →
    (∀ x y, mx ≤ x → x < max_x → my ≤ y → y < y2 → |height grid x y - h| ≤ 1e-10) →
    (max_x = m ∨ ∃ y, my ≤ y ∧ y < y2 ∧ 1e-10 < |height grid max_x y - h|) →
    ∃ X Y, growRect grid h mx c y2 max_x y2 = .ok (X, Y) ∧ mx < X ∧ X ≤ m ∧ y2 ≤ Y ∧ Y ≤ n ∧
      (∀ x y, mx ≤ x → x < X → my ≤ y → y < Y → |height grid x y - h| ≤ 1e-10) ∧
      (X = m ∨ ∃ y, my ≤ y ∧ y < Y ∧ 1e-10 < |height grid X y - h|) ∧
      (Y = n ∨ 1e-10 ≤ |height grid mx Y - h|) ∧
      (|height grid mx y2 - h| < 1e-10 → 0 < c → y2 < Y) := by
  induction c with
  | zero =>
    intro y2 max_x h1 h2 h3 h4 h5 h6
    exact ⟨max_x, y2, rfl, h2, h3, le_rfl, by omega, h5, h6, .inl (by omega), fun _ h => by omega⟩
  | succ c ih =>
    intro y2 max_x h1 h2 h3 h4 h5 h6
    rw [growRect, cell_ok hg (by omega) (by omega)]
    simp only [bind, Except.bind]
    by_cases hc : |height grid mx y2 - h| < 1e-10
    · rw [if_pos hc]
      obtain ⟨r, g1, g2, g3, g4, g5, g6⟩ := growRow_ok hg h (y2 := y2) (by omega) (max_x - mx) mx max_x (by omega) h3
      rw [g1]
      dsimp only
      obtain ⟨X, Y, k1, k2, k3, k4, k5, k6, k8, k9, k7⟩ := ih (y2 + 1) r (by omega) (g5 hc.le (by omega)) (by omega) (by omega) (by
        intro x y a b c' d
        rcases Nat.lt_succ_iff_lt_or_eq.1 d with d | rfl
        · exact h5 x y a (by omega) c' d
        · exact g4 x a b) (by
        rcases g6 with rfl | g6
        · exact h6.imp_right fun ⟨y, a, b, c'⟩ => ⟨y, a, by omega, c'⟩
        · exact .inr ⟨y2, h4, by omega, g6⟩)
      exact ⟨X, Y, k1, k2, k3, by omega, k5, k6, k8, k9, fun _ _ => by omega⟩
    · rw [if_neg hc]
      exact ⟨max_x, y2, rfl, h2, h3, le_rfl, by omega, h5, h6, .inr (not_lt.1 hc), fun h' => absurd h' hc⟩

/-- The rectangle starts before the cell in the order of the loops. -/
def StartsBefore (mx my : ℕ) : Face → Prop
  | .top a b _ _ _ => a < mx ∨ a = mx ∧ b < my
  | _ => True

/-- What the tops loop maintains: the mesh is the start plus the rectangles `F`. -/
def TopInv (grid : List (List ℝ)) (m n : ℕ) (res : ℝ) (m0 : Mesh) (mx my : ℕ) (s : (ℕ → ℕ → Bool) × Mesh) : Prop :=
  ∃ F : List Face, s.2 = F.foldl (addFace res) m0 ∧ F.length ≤ mx * n + my ∧ (∀ f ∈ F, GoodTop grid m n f) ∧
    (F.Pairwise Face.StartsOutside ∧ ∀ f ∈ F, StartsBefore mx my f) ∧ (∀ x y, s.1 x y = true ↔ ∃ f ∈ F, f.Covers x y) ∧
    ∀ x y, x < mx ∨ (x = mx ∧ y < my) → x < m → y < n → 0 < height grid x y → ∃ f ∈ F, f.Covers x y

theorem StartsBefore.later {mx my : ℕ} {f : Face} (h : StartsBefore mx my f) : StartsBefore mx (my + 1) f := by
  cases f with
  | top a b c d z => exact h.imp_right fun h => ⟨h.1, by omega⟩
  | wallX => trivial
  | wallY => trivial

theorem topCell_ok (hg : Rectangular grid m n) {res : ℝ} {m0 : Mesh} {mx my : ℕ} (hx : mx < m) (hy : my < n)
    {s : (ℕ → ℕ → Bool) × Mesh} (hs : TopInv grid m n res m0 mx my s) :
    ∃ s', topCell grid res m n s mx my = .ok s' ∧ TopInv grid m n res m0 mx (my + 1) s' := by
  obtain ⟨F, f1, f2, f3, f6, f4, f5⟩ := hs
  unfold topCell
  rw [cell_ok hg hx hy]
  simp only [bind, Except.bind]
  by_cases hc : s.1 mx my = false ∧ height grid mx my > 0
  · rw [if_pos hc]
    obtain ⟨X, Y, k1, k2, k3, k4, k5, k6, k8, k9, k7⟩ := growRect_ok hg (height grid mx my) (mx := mx) (my := my) (n - my) my m
      (by omega) hx le_rfl le_rfl (by intro x y _ _ a b; omega) (.inl rfl)
    rw [k1]
    dsimp only
    have k7' := k7 (by norm_num) (by omega)
    refine ⟨_, rfl, F ++ [.top mx my X Y (height grid mx my)], ?_, ?_, ?_, ?_, ?_, ?_⟩
    · rw [List.foldl_append, ← f1]
      rfl
    · simp only [List.length_append, List.length_singleton]; omega
    · intro f hf
      rw [List.mem_append, List.mem_singleton] at hf
      rcases hf with hf | rfl
      · exact f3 f hf
      · exact ⟨k2, k3, k7', k5, rfl, hc.2, k6, k8, k9⟩
    · rw [List.pairwise_append]
      refine ⟨⟨f6.1, List.pairwise_singleton _ _, fun f hf g hg' => ?_⟩, fun f hf => ?_⟩
      · rw [List.mem_singleton] at hg'
        subst hg'
        cases f with
        | wallX => trivial
        | wallY => trivial
        | top a b c d h =>
          refine ⟨f6.2 _ hf, fun hcov => ?_⟩
          rw [(f4 mx my).2 ⟨_, hf, hcov⟩] at hc
          exact absurd hc.1 (by simp)
      · rw [List.mem_append, List.mem_singleton] at hf
        rcases hf with hf | rfl
        · exact (f6.2 f hf).later
        · exact .inr ⟨rfl, by omega⟩
    · intro x y
      simp only [Bool.or_eq_true, decide_eq_true_eq, f4, List.mem_append, List.mem_singleton, or_and_right, exists_or,
        exists_eq_left, Face.Covers]
    · intro x y hxy hxm hyn hp
      simp only [List.mem_append, List.mem_singleton, or_and_right, exists_or, exists_eq_left, Face.Covers]
      by_cases he : x = mx ∧ y = my
      · exact .inr ⟨by omega, by omega, by omega, by omega⟩
      · exact .inl (f5 x y (by omega) hxm hyn hp)
  · rw [if_neg hc]
    refine ⟨s, rfl, F, f1, by omega, f3, ⟨f6.1, fun f hf => (f6.2 f hf).later⟩, f4, ?_⟩
    intro x y hxy hxm hyn hp
    by_cases he : x = mx ∧ y = my
    · obtain ⟨rfl, rfl⟩ := he
      have : s.1 x y = true := by
        by_contra hn
        exact hc ⟨by simpa using hn, hp⟩
      exact (f4 x y).1 this
    · exact f5 x y (by omega) hxm hyn hp

theorem tops_ok (hg : Rectangular grid m n) (res : ℝ) (m0 : Mesh) :
    ∃ (m1 : Mesh) (F : List Face), tops grid res m n m0 = .ok m1 ∧ m1 = F.foldl (addFace res) m0 ∧
      F.length ≤ m * n ∧ (∀ f ∈ F, GoodTop grid m n f) ∧ F.Pairwise Face.StartsOutside ∧
      ∀ x y, 0 < height grid x y → ∃ f ∈ F, f.Covers x y := by
  obtain ⟨s, h1, F, f1, f2, f3, f6, f4, f5⟩ := foldlM_range
    (f := fun s mx => (List.range n).foldlM (fun s my => topCell grid res m n s mx my) s)
    (b := ((fun _ _ => false), m0)) (fun mx s => TopInv grid m n res m0 mx 0 s) m
    ⟨[], rfl, by simp, by simp, ⟨.nil, by simp⟩, by simp, by omega⟩ (by
      intro mx hmx s hs
      obtain ⟨s', g1, g2⟩ := foldlM_range (f := fun s my => topCell grid res m n s mx my) (b := s)
        (fun my s => TopInv grid m n res m0 mx my s) n hs (fun my hmy s hs => topCell_ok hg hmx hmy hs)
      refine ⟨s', g1, ?_⟩
      obtain ⟨F, f1, f2, f3, f6, f4, f5⟩ := g2
      refine ⟨F, f1, by rw [Nat.succ_mul]; omega, f3, ⟨f6.1, fun f hf => ?_⟩, f4, fun x y hxy hxm hyn hp => f5 x y (by omega) hxm hyn hp⟩
      have := f6.2 f hf
      cases f with
      | top a b c d z => rcases this with h | h <;> exact .inl (by omega)
      | wallX => trivial
      | wallY => trivial)
  refine ⟨s.2, F, ?_, f1, by simpa using f2, f3, f6.1, ?_⟩
  · unfold tops
    rw [h1]
    rfl
  · intro x y hp
    have hxy : x < m ∧ y < n := by
      by_contra hc
      rw [height_out hg (by omega)] at hp
      exact lt_irrefl _ hp
    exact f5 x y (by omega) hxy.1 hxy.2 hp

/-! ## Walls -/

/-- Separation of the heights on both sides of a line. -/
def LineSep (a b : ℕ → ℝ) : Prop := ∀ i j, (a i ≠ a j → 1e-10 < |a i - a j|) ∧ (b i ≠ b j → 1e-10 < |b i - b j|) ∧
  (a i ≠ b i → 1e-10 < |a i - b i|)

/-- A stretch of a wall along a line: from, to, and the two heights. -/
abbrev Run := ℕ × ℕ × ℝ × ℝ

/-- What the loop along a line maintains: runs found so far, and the current one. -/
structure LineInv (quad : Mesh → ℕ → ℕ → ℝ → ℝ → Mesh) (a b : ℕ → ℝ) (m0 : Mesh) (j : ℕ) (s : SideState)
    (R : List Run) : Prop where
  mesh : s.mesh = R.foldl (fun m r => quad m r.1 r.2.1 r.2.2.1 r.2.2.2) m0
  len : R.length + (if s.start.isSome then 1 else 0) ≤ j
  last : ∀ i, j = i + 1 → s.h_last = a i ∧ s.h2_last = b i
  start : ∀ i0, s.start = some i0 → i0 < j
  runs : ∀ r ∈ R, r.1 < r.2.1 ∧ r.2.1 ≤ j - 1 ∧ r.2.2.1 = a (r.2.1 - 1) ∧ r.2.2.2 = b (r.2.1 - 1)
  sepStart : LineSep a b → ∀ i0, s.start = some i0 → ∀ i, i0 ≤ i → i < j → a i = s.h_last ∧ b i = s.h2_last ∧ a i ≠ b i
  sepRuns : LineSep a b → ∀ r ∈ R, ∀ i, r.1 ≤ i → i < r.2.1 → a i = r.2.2.1 ∧ b i = r.2.2.2 ∧ a i ≠ b i
  sepAll : LineSep a b → ∀ i < j, a i ≠ b i → (∃ r ∈ R, r.1 ≤ i ∧ i < r.2.1) ∨ ∃ i0, s.start = some i0 ∧ i0 ≤ i
  before : ∀ r ∈ R, ∀ i0, s.start = some i0 → r.2.1 ≤ i0
  order : R.Pairwise fun r r' => r.2.1 ≤ r'.1

theorem lineInv_step {quad : Mesh → ℕ → ℕ → ℝ → ℝ → Mesh} {a b : ℕ → ℝ} {m0 : Mesh} {j : ℕ} {s : SideState}
    {R : List Run} (h : LineInv quad a b m0 j s R) :
    ∃ R', LineInv quad a b m0 (j + 1) (sideBody quad s j (a j) (b j)) R' := by
  have gt : LineSep a b → |a j - b j| > 1e-10 → a j ≠ b j := by
    intro _ h1 h2
    rw [h2] at h1
    norm_num at h1
  have ngt : LineSep a b → ¬ |a j - b j| > 1e-10 → a j = b j := by
    intro hs h1
    by_contra h2
    exact h1 ((hs j j).2.2 h2)
  cases hst : s.start with
  | none =>
    have e : sideBody quad s j (a j) (b j) =
        ⟨a j, b j, if |a j - b j| > 1e-10 then some j else none, s.mesh⟩ := by
      unfold sideBody; rw [hst]
    rw [e]
    have hlen := h.len
    rw [hst] at hlen
    simp only [Option.isSome_none, Bool.false_eq_true, if_false, Nat.add_zero] at hlen
    refine ⟨R, ⟨h.mesh, ?_, ?_, ?_, ?_, ?_, h.sepRuns, ?_, ?_, h.order⟩⟩
    · split_ifs <;> simp <;> omega
    · intro i hi
      have : i = j := by omega
      subst this
      exact ⟨rfl, rfl⟩
    · intro i0 hi0
      split_ifs at hi0
      simp only [Option.some.injEq] at hi0
      omega
    · intro r hr
      obtain ⟨r1, r2, r3⟩ := h.runs r hr
      exact ⟨r1, by omega, r3⟩
    · intro hs i0 hi0 i h1 h2
      split_ifs at hi0 with hc
      simp only [Option.some.injEq] at hi0
      have : i = j := by omega
      subst this
      exact ⟨rfl, rfl, gt hs hc⟩
    · intro hs i hi hne
      rcases Nat.lt_succ_iff_lt_or_eq.1 hi with hi | rfl
      · rcases h.sepAll hs i hi hne with h' | ⟨i0, h', -⟩
        · exact .inl h'
        · rw [hst] at h'; simp at h'
      · refine .inr ⟨i, ?_, le_rfl⟩
        rw [if_pos]
        by_contra hc
        exact hne (ngt hs hc)
    · intro r hr i0 hi0
      obtain ⟨r1, r2, r3⟩ := h.runs r hr
      split_ifs at hi0
      simp only [Option.some.injEq] at hi0
      omega
  | some i0 =>
    have hj := h.start i0 hst
    have hlast : s.h_last = a (j - 1) ∧ s.h2_last = b (j - 1) := h.last (j - 1) (by omega)
    have hlen := h.len
    rw [hst] at hlen
    simp only [Option.isSome_some, if_true] at hlen
    by_cases hc : |a j - s.h_last| + |b j - s.h2_last| > 1e-10
    · have e : sideBody quad s j (a j) (b j) =
          ⟨a j, b j, if |a j - b j| > 1e-10 then some j else none, quad s.mesh i0 j s.h_last s.h2_last⟩ := by
        unfold sideBody; rw [hst]; exact if_pos hc
      rw [e]
      refine ⟨R ++ [(i0, j, s.h_last, s.h2_last)], ⟨?_, ?_, ?_, ?_, ?_, ?_, ?_, ?_, ?_, ?_⟩⟩
      · simp only [List.foldl_append, List.foldl_cons, List.foldl_nil, ← h.mesh]
      · simp only [List.length_append, List.length_singleton]
        split_ifs <;> omega
      · intro i hi
        have : i = j := by omega
        subst this
        exact ⟨rfl, rfl⟩
      · intro i1 hi1
        split_ifs at hi1
        simp only [Option.some.injEq] at hi1
        omega
      · intro r hr
        rw [List.mem_append, List.mem_singleton] at hr
        rcases hr with hr | rfl
        · obtain ⟨r1, r2, r3⟩ := h.runs r hr
          exact ⟨r1, by omega, r3⟩
        · exact ⟨hj, by simp, hlast.1, hlast.2⟩
      · intro hs i1 hi1 i h1 h2
        split_ifs at hi1 with hc'
        simp only [Option.some.injEq] at hi1
        have : i = j := by omega
        subst this
        exact ⟨rfl, rfl, gt hs hc'⟩
      · intro hs r hr i h1 h2
        rw [List.mem_append, List.mem_singleton] at hr
        rcases hr with hr | rfl
        · exact h.sepRuns hs r hr i h1 h2
        · exact h.sepStart hs i0 hst i h1 h2
      · intro hs i hi hne
        rcases Nat.lt_succ_iff_lt_or_eq.1 hi with hi | rfl
        · left
          rcases h.sepAll hs i hi hne with ⟨r, h1, h2⟩ | ⟨i1, h1, h2⟩
          · exact ⟨r, by simp [h1], h2⟩
          · rw [hst] at h1
            simp only [Option.some.injEq] at h1
            subst h1
            exact ⟨(i0, j, s.h_last, s.h2_last), by simp, h2, hi⟩
        · refine .inr ⟨i, ?_, le_rfl⟩
          rw [if_pos]
          by_contra hc'
          exact hne (ngt hs hc')
      · intro r hr i1 hi1
        split_ifs at hi1
        simp only [Option.some.injEq] at hi1
        rw [List.mem_append, List.mem_singleton] at hr
        rcases hr with hr | rfl
        · obtain ⟨r1, r2, r3⟩ := h.runs r hr
          omega
        · simp; omega
      · rw [List.pairwise_append]
        refine ⟨h.order, by simp, ?_⟩
        intro r hr r' hr'
        rw [List.mem_singleton] at hr'
        subst hr'
        exact h.before r hr i0 hst
    · have e : sideBody quad s j (a j) (b j) = ⟨a j, b j, some i0, s.mesh⟩ := by
        unfold sideBody; rw [hst]; exact if_neg hc
      rw [e]
      have same : LineSep a b → a j = s.h_last ∧ b j = s.h2_last := by
        intro hs
        rw [hlast.1, hlast.2] at hc ⊢
        push Not at hc
        have p1 := abs_nonneg (a j - a (j - 1))
        have p2 := abs_nonneg (b j - b (j - 1))
        constructor
        · by_contra hne
          have := (hs j (j - 1)).1 hne
          linarith
        · by_contra hne
          have := (hs j (j - 1)).2.1 hne
          linarith
      refine ⟨R, ⟨h.mesh, ?_, ?_, ?_, ?_, ?_, h.sepRuns, ?_, ?_, h.order⟩⟩
      · simp; omega
      · intro i hi
        have : i = j := by omega
        subst this
        exact ⟨rfl, rfl⟩
      · intro i1 hi1
        simp only [Option.some.injEq] at hi1
        omega
      · intro r hr
        obtain ⟨r1, r2, r3⟩ := h.runs r hr
        exact ⟨r1, by omega, r3⟩
      · intro hs i1 hi1 i h1 h2
        simp only [Option.some.injEq] at hi1
        subst hi1
        obtain ⟨q1, q2⟩ := same hs
        dsimp only
        rcases Nat.lt_succ_iff_lt_or_eq.1 h2 with h2 | rfl
        · rw [q1, q2]; exact h.sepStart hs i0 hst i h1 h2
        · obtain ⟨k1, k2, k3⟩ := h.sepStart hs i0 hst i0 le_rfl hj
          refine ⟨rfl, rfl, ?_⟩
          rw [q1, q2, ← k1, ← k2]; exact k3
      · intro hs i hi hne
        rcases Nat.lt_succ_iff_lt_or_eq.1 hi with hi | rfl
        · rcases h.sepAll hs i hi hne with h' | ⟨i1, h1, h2⟩
          · exact .inl h'
          · rw [hst] at h1
            exact .inr ⟨i1, h1, h2⟩
        · exact .inr ⟨i0, rfl, hj.le⟩
      · intro r hr i1 hi1
        simp only [Option.some.injEq] at hi1
        subst hi1
        exact h.before r hr i0 hst

theorem lineInv_init (quad : Mesh → ℕ → ℕ → ℝ → ℝ → Mesh) (a b : ℕ → ℝ) (m0 : Mesh) :
    LineInv quad a b m0 0 ⟨0, 0, none, m0⟩ [] := by
  refine ⟨rfl, by simp, by omega, by simp, by simp, by simp, by simp, by omega, by simp, by simp⟩

/-- The whole line: the runs cover the steps between the two sides, each once. -/
theorem line_ok {quad : Mesh → ℕ → ℕ → ℝ → ℝ → Mesh} {a b : ℕ → ℝ} (m0 : Mesh) (n : ℕ)
    {f : SideState → ℕ → Exec SideState} (hf : ∀ s, ∀ j < n + 1, f s j = .ok (sideBody quad s j (a j) (b j)))
    (ha : a n = 0) (hb : b n = 0) :
    ∃ (s : SideState) (R : List Run), (List.range (n + 1)).foldlM f ⟨0, 0, none, m0⟩ = .ok s ∧
      s.mesh = R.foldl (fun m r => quad m r.1 r.2.1 r.2.2.1 r.2.2.2) m0 ∧ R.length ≤ n + 1 ∧
      (∀ r ∈ R, r.1 < r.2.1 ∧ r.2.1 ≤ n ∧ r.2.2.1 = a (r.2.1 - 1) ∧ r.2.2.2 = b (r.2.1 - 1)) ∧
      (R.Pairwise fun r r' => r.2.1 ≤ r'.1) ∧
      (LineSep a b → (∀ r ∈ R, ∀ i, r.1 ≤ i → i < r.2.1 → a i = r.2.2.1 ∧ b i = r.2.2.2 ∧ a i ≠ b i) ∧
        ∀ i < n, a i ≠ b i → ∃ r ∈ R, r.1 ≤ i ∧ i < r.2.1) := by
  obtain ⟨s, h1, R, h2⟩ := foldlM_range (f := f) (fun j s => ∃ R, LineInv quad a b m0 j s R) (n + 1)
    ⟨[], lineInv_init quad a b m0⟩ (by
      rintro j hj s ⟨R, hR⟩
      exact ⟨_, hf s j hj, lineInv_step hR⟩)
  refine ⟨s, R, h1, h2.mesh, ?_, ?_, h2.order, ?_⟩
  · have := h2.len; omega
  · intro r hr
    have := h2.runs r hr
    exact ⟨this.1, by omega, this.2.2⟩
  · intro hs
    refine ⟨h2.sepRuns hs, fun i hi hne => ?_⟩
    rcases h2.sepAll hs i (by omega) hne with h' | ⟨i0, h', -⟩
    · exact h'
    · exfalso
      have hi0 := h2.start i0 h'
      obtain ⟨k1, k2, k3⟩ := h2.sepStart hs i0 h' n (by omega) (by omega)
      exact k3 (ha.trans hb.symm)


theorem guarded_ok (hg : Rectangular grid m n) (x y : ℕ) :
    guarded grid (decide (x < m ∧ y < n)) x y = .ok (height grid x y) := by
  unfold guarded
  by_cases h : x < m ∧ y < n
  · simp only [h, and_self, decide_true, if_true]
    exact cell_ok hg h.1 h.2
  · simp only [h, decide_false, Bool.false_eq_true, if_false]
    rw [height_out hg (by omega)]

theorem guarded_left (hg : Rectangular grid m n) {x : ℕ} (hx : x ≤ m) (y : ℕ) :
    guarded grid (decide (x > 0 ∧ y < n)) (x - 1) y = .ok (heightLeft grid x y) := by
  unfold guarded heightLeft
  by_cases h : x > 0 ∧ y < n
  · simp only [h, and_self, decide_true, if_true]
    rw [cell_ok hg (by omega) h.2, if_neg (by omega)]
  · simp only [h, decide_false, Bool.false_eq_true, if_false]
    split_ifs with h0
    · rfl
    · rw [height_out hg (by omega)]

theorem guarded_below (hg : Rectangular grid m n) {y : ℕ} (hy : y ≤ n) (x : ℕ) :
    guarded grid (decide (y > 0 ∧ x < m)) x (y - 1) = .ok (heightBelow grid x y) := by
  unfold guarded heightBelow
  by_cases h : y > 0 ∧ x < m
  · simp only [h, and_self, decide_true, if_true]
    rw [cell_ok hg h.2 (by omega), if_neg (by omega)]
  · simp only [h, decide_false, Bool.false_eq_true, if_false]
    split_ifs with h0
    · rfl
    · rw [height_out hg (by omega)]

theorem lineSepX (hs : Separated grid) (h0 : ∃ x y, height grid x y = 0) (x : ℕ) :
    LineSep (fun y => height grid x y) (fun y => heightLeft grid x y) := by
  obtain ⟨u, v, huv⟩ := h0
  intro i j
  unfold heightLeft
  by_cases hx : x = 0
  · simp only [hx, if_true]
    refine ⟨hs _ _ _ _, by simp, ?_⟩
    rw [← huv]; exact hs _ _ _ _
  · simp only [hx, if_false]
    exact ⟨hs _ _ _ _, hs _ _ _ _, hs _ _ _ _⟩

theorem lineSepY (hs : Separated grid) (h0 : ∃ x y, height grid x y = 0) (y : ℕ) :
    LineSep (fun x => height grid x y) (fun x => heightBelow grid x y) := by
  obtain ⟨u, v, huv⟩ := h0
  intro i j
  unfold heightBelow
  by_cases hy : y = 0
  · simp only [hy, if_true]
    refine ⟨hs _ _ _ _, by simp, ?_⟩
    rw [← huv]; exact hs _ _ _ _
  · simp only [hy, if_false]
    exact ⟨hs _ _ _ _, hs _ _ _ _, hs _ _ _ _⟩

theorem sidesX_ok (hg : Rectangular grid m n) (res : ℝ) (m0 : Mesh) :
    ∃ (m1 : Mesh) (W : List Face), sidesX grid res m n m0 = .ok m1 ∧ m1 = W.foldl (addFace res) m0 ∧
      W.length ≤ (m + 1) * (n + 1) ∧ (∀ f ∈ W, WallXIn grid m n f) ∧ (Separated grid → WallsX grid W) := by
  have h0 : ∃ x y, height grid x y = 0 := ⟨m, 0, height_out hg (.inl le_rfl)⟩
  obtain ⟨m1, h1, W, w1, w2, w3, w4⟩ := foldlM_range
    (f := fun (m' : Mesh) mx => do
      let s ← (List.range (n + 1)).foldlM (fun s my => do
        let h ← guarded grid (decide (mx < m ∧ my < n)) mx my
        let h2 ← guarded grid (decide (mx > 0 ∧ my < n)) (mx - 1) my
        return sideBody (quadX res mx) s my h h2) (⟨0, 0, none, m'⟩ : SideState)
      return s.mesh) (b := m0)
    (fun mx m' => ∃ W : List Face, m' = W.foldl (addFace res) m0 ∧ W.length ≤ mx * (n + 1) ∧
      (∀ f ∈ W, WallXIn grid m n f) ∧
      ((∀ f ∈ W, ∀ x y, f.AtX x y → x < mx) ∧ (Separated grid →
        (∀ f ∈ W, ∀ x y, f.AtX x y → f.wallHeights = (height grid x y, heightLeft grid x y) ∧
          height grid x y ≠ heightLeft grid x y) ∧
        (∀ x y, x < mx → height grid x y ≠ heightLeft grid x y → ∃ f ∈ W, f.AtX x y) ∧
        W.Pairwise fun f f' => ∀ x y, ¬ (f.AtX x y ∧ f'.AtX x y)))) (m + 1)
    ⟨[], rfl, by simp, by simp, by simp, fun _ => ⟨by simp, by omega, by simp⟩⟩ (by
      rintro x hx m' ⟨W, w1, w2, w3, w4, w5⟩
      obtain ⟨s, R, r1, r2, r3, r4, r5, r6⟩ := line_ok (quad := quadX res x) (a := fun y => height grid x y)
        (b := fun y => heightLeft grid x y) m' n (f := fun s my => do
        let h ← guarded grid (decide (x < m ∧ my < n)) x my
        let h2 ← guarded grid (decide (x > 0 ∧ my < n)) (x - 1) my
        return sideBody (quadX res x) s my h h2) (by
          intro s j hj
          simp only [guarded_ok hg, guarded_left hg (show x ≤ m by omega), bind, Except.bind]
          rfl)
        (height_out hg (.inr le_rfl)) (by
          simp only [heightLeft]
          split_ifs
          · rfl
          · exact height_out hg (.inr le_rfl))
      rw [r1]
      refine ⟨_, rfl, W ++ R.map (fun r => Face.wallX x r.1 r.2.1 r.2.2.1 r.2.2.2), ?_, ?_, ?_, ?_, ?_⟩
      · rw [r2, List.foldl_append, ← w1, List.foldl_map]
        rfl
      · rw [List.length_append, List.length_map, Nat.succ_mul]; omega
      · intro f hf
        rw [List.mem_append, List.mem_map] at hf
        rcases hf with hf | ⟨r, hr, rfl⟩
        · exact w3 f hf
        · obtain ⟨q1, q2, q3, q4⟩ := r4 r hr
          exact ⟨by omega, q1, q2, q3, q4⟩
      · intro f hf x' y' hat
        rw [List.mem_append, List.mem_map] at hf
        rcases hf with hf | ⟨r, hr, rfl⟩
        · have := w4 f hf x' y' hat; omega
        · have := hat.1; omega
      · intro hs
        obtain ⟨v1, v2, v3⟩ := w5 hs
        obtain ⟨u1, u2⟩ := r6 (lineSepX hs h0 x)
        refine ⟨?_, ?_, ?_⟩
        · intro f hf x' y' hat
          rw [List.mem_append, List.mem_map] at hf
          rcases hf with hf | ⟨r, hr, rfl⟩
          · exact v1 f hf x' y' hat
          · obtain ⟨rfl, a2, a3⟩ := hat
            obtain ⟨k1, k2, k3⟩ := u1 r hr y' a2 a3
            exact ⟨Prod.ext k1.symm k2.symm, k3⟩
        · intro x' y' hx' hne
          rcases Nat.lt_succ_iff_lt_or_eq.1 hx' with hx' | rfl
          · obtain ⟨f, hf, hat⟩ := v2 x' y' hx' hne
            exact ⟨f, by simp [hf], hat⟩
          · have hy' : y' < n := by
              by_contra hc
              apply hne
              rw [height_out hg (.inr (not_lt.1 hc))]
              unfold heightLeft
              split_ifs
              · rfl
              · rw [height_out hg (.inr (not_lt.1 hc))]
            obtain ⟨r, hr, k1, k2⟩ := u2 y' hy' hne
            exact ⟨_, List.mem_append.2 (.inr (List.mem_map.2 ⟨r, hr, rfl⟩)), rfl, k1, k2⟩
        · rw [List.pairwise_append]
          refine ⟨v3, ?_, ?_⟩
          · rw [List.pairwise_map]
            refine r5.imp ?_
            rintro r r' hrr x' y' ⟨⟨-, a2, a3⟩, -, b2, b3⟩
            omega
          · intro f hf f' hf' x' y' ⟨k1, k2⟩
            rw [List.mem_map] at hf'
            obtain ⟨r, hr, rfl⟩ := hf'
            have := w4 f hf x' y' k1
            have := k2.1
            omega)
  refine ⟨m1, W, h1, w1, w2, w3, fun hs => ?_⟩
  obtain ⟨v1, v2, v3⟩ := w4.2 hs
  refine ⟨v1, fun x y hne => v2 x y ?_ hne, v3⟩
  by_contra hc
  apply hne
  unfold heightLeft
  rw [height_out hg (.inl (by omega)), if_neg (by omega), height_out hg (.inl (by omega))]

theorem sidesY_ok (hg : Rectangular grid m n) (res : ℝ) (m0 : Mesh) :
    ∃ (m1 : Mesh) (W : List Face), sidesY grid res m n m0 = .ok m1 ∧ m1 = W.foldl (addFace res) m0 ∧
      W.length ≤ (n + 1) * (m + 1) ∧ (∀ f ∈ W, WallYIn grid m n f) ∧ (Separated grid → WallsY grid W) := by
  have h0 : ∃ x y, height grid x y = 0 := ⟨m, 0, height_out hg (.inl le_rfl)⟩
  obtain ⟨m1, h1, W, w1, w2, w3, w4⟩ := foldlM_range
    (f := fun (m' : Mesh) my => do
      let s ← (List.range (m + 1)).foldlM (fun s mx => do
        let h ← guarded grid (decide (mx < m ∧ my < n)) mx my
        let h2 ← guarded grid (decide (my > 0 ∧ mx < m)) mx (my - 1)
        return sideBody (quadY res my) s mx h h2) (⟨0, 0, none, m'⟩ : SideState)
      return s.mesh) (b := m0)
    (fun my m' => ∃ W : List Face, m' = W.foldl (addFace res) m0 ∧ W.length ≤ my * (m + 1) ∧
      (∀ f ∈ W, WallYIn grid m n f) ∧
      ((∀ f ∈ W, ∀ x y, f.AtY x y → y < my) ∧ (Separated grid →
        (∀ f ∈ W, ∀ x y, f.AtY x y → f.wallHeights = (height grid x y, heightBelow grid x y) ∧
          height grid x y ≠ heightBelow grid x y) ∧
        (∀ x y, y < my → height grid x y ≠ heightBelow grid x y → ∃ f ∈ W, f.AtY x y) ∧
        W.Pairwise fun f f' => ∀ x y, ¬ (f.AtY x y ∧ f'.AtY x y)))) (n + 1)
    ⟨[], rfl, by simp, by simp, by simp, fun _ => ⟨by simp, by omega, by simp⟩⟩ (by
      rintro y hy m' ⟨W, w1, w2, w3, w4, w5⟩
      obtain ⟨s, R, r1, r2, r3, r4, r5, r6⟩ := line_ok (quad := quadY res y) (a := fun x => height grid x y)
        (b := fun x => heightBelow grid x y) m' m (f := fun s mx => do
        let h ← guarded grid (decide (mx < m ∧ y < n)) mx y
        let h2 ← guarded grid (decide (y > 0 ∧ mx < m)) mx (y - 1)
        return sideBody (quadY res y) s mx h h2) (by
          intro s j hj
          simp only [guarded_ok hg, guarded_below hg (show y ≤ n by omega), bind, Except.bind]
          rfl)
        (height_out hg (.inl le_rfl)) (by
          simp only [heightBelow]
          split_ifs
          · rfl
          · exact height_out hg (.inl le_rfl))
      rw [r1]
      refine ⟨_, rfl, W ++ R.map (fun r => Face.wallY y r.1 r.2.1 r.2.2.1 r.2.2.2), ?_, ?_, ?_, ?_, ?_⟩
      · rw [r2, List.foldl_append, ← w1, List.foldl_map]
        rfl
      · rw [List.length_append, List.length_map, Nat.succ_mul]; omega
      · intro f hf
        rw [List.mem_append, List.mem_map] at hf
        rcases hf with hf | ⟨r, hr, rfl⟩
        · exact w3 f hf
        · obtain ⟨q1, q2, q3, q4⟩ := r4 r hr
          exact ⟨by omega, q1, q2, q3, q4⟩
      · intro f hf x' y' hat
        rw [List.mem_append, List.mem_map] at hf
        rcases hf with hf | ⟨r, hr, rfl⟩
        · have := w4 f hf x' y' hat; omega
        · have := hat.1; omega
      · intro hs
        obtain ⟨v1, v2, v3⟩ := w5 hs
        obtain ⟨u1, u2⟩ := r6 (lineSepY hs h0 y)
        refine ⟨?_, ?_, ?_⟩
        · intro f hf x' y' hat
          rw [List.mem_append, List.mem_map] at hf
          rcases hf with hf | ⟨r, hr, rfl⟩
          · exact v1 f hf x' y' hat
          · obtain ⟨rfl, a2, a3⟩ := hat
            obtain ⟨k1, k2, k3⟩ := u1 r hr x' a2 a3
            exact ⟨Prod.ext k1.symm k2.symm, k3⟩
        · intro x' y' hy' hne
          rcases Nat.lt_succ_iff_lt_or_eq.1 hy' with hy' | rfl
          · obtain ⟨f, hf, hat⟩ := v2 x' y' hy' hne
            exact ⟨f, by simp [hf], hat⟩
          · have hx' : x' < m := by
              by_contra hc
              apply hne
              rw [height_out hg (.inl (not_lt.1 hc))]
              unfold heightBelow
              split_ifs
              · rfl
              · rw [height_out hg (.inl (not_lt.1 hc))]
            obtain ⟨r, hr, k1, k2⟩ := u2 x' hx' hne
            exact ⟨_, List.mem_append.2 (.inr (List.mem_map.2 ⟨r, hr, rfl⟩)), rfl, k1, k2⟩
        · rw [List.pairwise_append]
          refine ⟨v3, ?_, ?_⟩
          · rw [List.pairwise_map]
            refine r5.imp ?_
            rintro r r' hrr x' y' ⟨⟨-, a2, a3⟩, -, b2, b3⟩
            omega
          · intro f hf f' hf' x' y' ⟨k1, k2⟩
            rw [List.mem_map] at hf'
            obtain ⟨r, hr, rfl⟩ := hf'
            have := w4 f hf x' y' k1
            have := k2.1
            omega)
  refine ⟨m1, W, h1, w1, w2, w3, fun hs => ?_⟩
  obtain ⟨v1, v2, v3⟩ := w4.2 hs
  refine ⟨v1, fun x y hne => v2 x y ?_ hne, v3⟩
  by_contra hc
  apply hne
  unfold heightBelow
  rw [height_out hg (.inr (by omega)), if_neg (by omega), height_out hg (.inr (by omega))]

end HeightMap
end Geo
