import Verif.Lemmas.HeightMap

/-!
# Helper lemmas for height maps: rays
-/

namespace Geo
open Spec

theorem slab_mono {lo hi lo' hi' o u : ℝ} (h1 : lo ≤ lo') (h2 : hi' ≤ hi) :
    slabLo lo hi o u ≤ slabLo lo' hi' o u ∧ slabHi lo' hi' o u ≤ slabHi lo hi o u := by
  unfold slabLo slabHi
  by_cases hu : u < 0
  · have hi : invComponent u ≤ 0 := by
      unfold invComponent
      split_ifs
      · exact le_rfl
      · exact (one_div_neg.2 hu).le
    simp only [if_pos hu]
    exact ⟨mul_le_mul_of_nonpos_right (by linarith) hi, mul_le_mul_of_nonpos_right (by linarith) hi⟩
  · have hi : 0 ≤ invComponent u := by
      unfold invComponent
      split_ifs
      · exact le_rfl
      · exact one_div_nonneg.2 (not_lt.1 hu)
    simp only [if_neg hu]
    exact ⟨mul_le_mul_of_nonneg_right (by linarith) hi, mul_le_mul_of_nonneg_right (by linarith) hi⟩

theorem slabs_flag {a1 a2 b1 b2 c1 c2 t0 t1 d0 : ℝ} :
    (if a1 > b2 ∨ b1 > a2 then (false, d0) else
        if max b1 a1 > c2 ∨ c1 > min b2 a2 then (false, d0) else
          (@decide (t0 < min c2 (min b2 a2) ∧ max c1 (max b1 a1) < t1) (Classical.propDecidable _),
            max c1 (max b1 a1))).1 = true ↔
      (a1 ≤ b2 ∧ b1 ≤ a2 ∧ b1 ≤ c2 ∧ a1 ≤ c2 ∧ c1 ≤ b2 ∧ c1 ≤ a2 ∧ t0 < c2 ∧ t0 < b2 ∧ t0 < a2 ∧
        c1 < t1 ∧ b1 < t1 ∧ a1 < t1) := by
  by_cases h1 : a1 > b2 ∨ b1 > a2
  · rw [if_pos h1]
    simp only [Bool.false_eq_true, false_iff]
    rintro ⟨g1, g2, -⟩
    rcases h1 with h | h <;> linarith
  · rw [if_neg h1]
    by_cases h2 : max b1 a1 > c2 ∨ c1 > min b2 a2
    · rw [if_pos h2]
      simp only [Bool.false_eq_true, false_iff]
      rintro ⟨g1, g2, g3, g4, g5, g6, -⟩
      rcases h2 with h | h
      · rcases lt_max_iff.1 h with h | h <;> linarith
      · rcases min_lt_iff.1 h with h | h <;> linarith
    · rw [if_neg h2]
      push Not at h1 h2
      obtain ⟨h3, h4⟩ := h2
      rw [max_le_iff] at h3
      rw [le_min_iff] at h4
      simp only [decide_eq_true_eq, lt_min_iff, max_lt_iff]
      constructor
      · rintro ⟨⟨x1, x2, x3⟩, x4, x5, x6⟩
        exact ⟨h1.1, h1.2, h3.1, h3.2, h4.1, h4.2, x1, x2, x3, x4, x5, x6⟩
      · rintro ⟨-, -, -, -, -, -, x1, x2, x3, x4, x5, x6⟩
        exact ⟨⟨x1, x2, x3⟩, x4, x5, x6⟩

/-- A larger box is hit whenever a smaller one is. -/
theorem box_mono {b b' : Box} (h1 : InBox b.lo b.hi b'.lo) (h2 : InBox b.lo b.hi b'.hi) (o d : Vec3)
    {t0 t1 d0 d1 : ℝ} (h : (b'.intersectRay (Ray.new o d) t0 t1 d0).1 = true) :
    (b.intersectRay (Ray.new o d) t0 t1 d1).1 = true := by
  rw [intersectRay_eq] at h ⊢
  dsimp only at h ⊢
  rw [slabs_flag] at h ⊢
  obtain ⟨x1, x2⟩ := slab_mono (o := o.x) (u := d.normalized.x) h1.1 h2.2.1
  obtain ⟨y1, y2⟩ := slab_mono (o := o.y) (u := d.normalized.y) h1.2.2.1 h2.2.2.2.1
  obtain ⟨z1, z2⟩ := slab_mono (o := o.z) (u := d.normalized.z) h1.2.2.2.2.1 h2.2.2.2.2.2
  obtain ⟨g1, g2, g3, g4, g5, g6, g7, g8, g9, g10, g11, g12⟩ := h
  refine ⟨?_, ?_, ?_, ?_, ?_, ?_, ?_, ?_, ?_, ?_, ?_, ?_⟩ <;> linarith

/-- The flag does not depend on the initial value of the out-parameter, nor does the distance on a hit. -/
theorem box_init (b : Box) (o d : Vec3) (t0 t1 d0 d1 : ℝ) :
    (b.intersectRay (Ray.new o d) t0 t1 d0).1 = (b.intersectRay (Ray.new o d) t0 t1 d1).1 ∧
    ((b.intersectRay (Ray.new o d) t0 t1 d0).1 = true →
      (b.intersectRay (Ray.new o d) t0 t1 d0).2 = (b.intersectRay (Ray.new o d) t0 t1 d1).2) := by
  rw [intersectRay_eq, intersectRay_eq]
  dsimp only
  split_ifs <;> simp

namespace HNode

/-- Which child the two loops report. -/
theorem loops {sel : Fin 4 → Bool} {f : Fin 4 → ℝ → Bool × ℝ} {b : Fin 4 → Bool} {g : Fin 4 → ℝ}
    (hf : ∀ i d, (f i d).1 = b i ∧ (b i = true → (f i d).2 = g i)) (d : ℝ) :
    let first := loopOrigin sel f [0, 1, 2, 3] d none
    let r := if first.1 then (true, first.2.1) else loopRest first.2.2 f [0, 1, 2, 3] first.2.1
    (r.1 = true ↔ ∃ i, b i = true) ∧
    (∃ i, ∀ d', let first := loopOrigin sel f [0, 1, 2, 3] d' none
      let r := if first.1 then (true, first.2.1) else loopRest first.2.2 f [0, 1, 2, 3] first.2.1
      r.1 = true → r.2 = g i ∧ b i = true ∧
      ((sel i = true ∧ ∀ j < i, sel j = true → b j = false) ∨
        ((∀ j, sel j = true → b j = false) ∧ ∀ j < i, b j = false))) := by
  have o1 : ∀ (l : List (Fin 4)) d k, (loopOrigin sel f l d k).1 = true ↔ ∃ i ∈ l, sel i = true ∧ b i = true := by
    intro l
    induction l with
    | nil => intro d k; simp [loopOrigin]
    | cons a l ih =>
      intro d k
      simp only [loopOrigin, List.mem_cons, exists_eq_or_imp]
      by_cases hs : sel a = true
      · rw [if_pos hs]
        by_cases hb : b a = true
        · rw [if_pos (by rw [(hf a d).1]; exact hb)]
          simp [hs, hb]
        · rw [if_neg (by rw [(hf a d).1]; exact hb), ih]
          simp [hs, hb]
      · rw [if_neg hs, ih]
        simp [hs]
  have o3 : ∀ (l : List (Fin 4)) d k, (loopOrigin sel f l d k).1 = false → (∀ j, k = some j → b j = false) →
      ∀ j, (loopOrigin sel f l d k).2.2 = some j → b j = false := by
    intro l
    induction l with
    | nil => intro d k _ hk; simpa [loopOrigin] using hk
    | cons a l ih =>
      intro d k h hk
      simp only [loopOrigin] at h ⊢
      by_cases hs : sel a = true
      · rw [if_pos hs] at h ⊢
        by_cases hb : b a = true
        · rw [if_pos (by rw [(hf a d).1]; exact hb)] at h
          simp at h
        · have hn : ¬ (f a d).1 = true := by rw [(hf a d).1]; exact hb
          rw [if_neg hn] at h ⊢
          refine ih _ _ h ?_
          intro j hj
          simp only [Option.some.injEq] at hj
          subst hj
          simpa using hb
      · rw [if_neg hs] at h ⊢
        exact ih _ _ h hk
  have r1 : ∀ (skip : Option (Fin 4)), (∀ j, skip = some j → b j = false) → ∀ (l : List (Fin 4)) d,
      (loopRest skip f l d).1 = true ↔ ∃ i ∈ l, b i = true := by
    intro skip hsk l
    induction l with
    | nil => intro d; simp [loopRest]
    | cons a l ih =>
      intro d
      simp only [loopRest, List.mem_cons, exists_eq_or_imp]
      by_cases hs : some a ≠ skip
      · rw [if_pos hs]
        by_cases hb : b a = true
        · rw [if_pos (by rw [(hf a d).1]; exact hb)]
          simp [hb]
        · rw [if_neg (by rw [(hf a d).1]; exact hb), ih]
          simp [hb]
      · rw [if_neg hs, ih]
        have := hsk a (by push Not at hs; exact hs.symm)
        simp [this]
  -- values
  have o2 : ∀ (l : List (Fin 4)) (i : Fin 4) (l1 l2 : List (Fin 4)), l = l1 ++ i :: l2 → sel i = true → b i = true →
      (∀ j ∈ l1, sel j = true → b j = false) → ∀ d k, (loopOrigin sel f l d k).2.1 = g i := by
    intro l i l1
    induction l1 generalizing l with
    | nil =>
      rintro l2 rfl hs hb - d k
      simp only [List.nil_append, loopOrigin]
      rw [if_pos hs, if_pos (by rw [(hf i d).1]; exact hb)]
      exact (hf i d).2 hb
    | cons a l1 ih =>
      rintro l2 rfl hs hb hj d k
      simp only [List.cons_append, loopOrigin]
      by_cases hsa : sel a = true
      · have hba := hj a (by simp) hsa
        rw [if_pos hsa, if_neg (by rw [(hf a d).1, hba]; simp)]
        exact ih _ l2 rfl hs hb (fun j hj' => hj j (by simp [hj'])) _ _
      · rw [if_neg hsa]
        exact ih _ l2 rfl hs hb (fun j hj' => hj j (by simp [hj'])) _ _
  have r2 : ∀ (skip : Option (Fin 4)), (∀ j, skip = some j → b j = false) →
      ∀ (l : List (Fin 4)) (i : Fin 4) (l1 l2 : List (Fin 4)), l = l1 ++ i :: l2 → b i = true →
      (∀ j ∈ l1, b j = false) → ∀ d, (loopRest skip f l d).2 = g i := by
    intro skip hsk l i l1
    induction l1 generalizing l with
    | nil =>
      rintro l2 rfl hb - d
      simp only [List.nil_append, loopRest]
      have hs : some i ≠ skip := by
        intro he
        have := hsk i he.symm
        rw [hb] at this; simp at this
      rw [if_pos hs, if_pos (by rw [(hf i d).1]; exact hb)]
      exact (hf i d).2 hb
    | cons a l1 ih =>
      rintro l2 rfl hb hj d
      simp only [List.cons_append, loopRest]
      have hba := hj a (by simp)
      by_cases hsa : some a ≠ skip
      · rw [if_pos hsa, if_neg (by rw [(hf a d).1, hba]; simp)]
        exact ih _ l2 rfl hb (fun j hj' => hj j (by simp [hj'])) _
      · rw [if_neg hsa]
        exact ih _ l2 rfl hb (fun j hj' => hj j (by simp [hj'])) _
  have all : ∀ i : Fin 4, i ∈ ([0, 1, 2, 3] : List (Fin 4)) := by decide
  have pre : ∀ i : Fin 4, ∃ l1 l2, ([0, 1, 2, 3] : List (Fin 4)) = l1 ++ i :: l2 ∧ ∀ j, j ∈ l1 ↔ j < i := by
    intro i
    fin_cases i
    · exact ⟨[], [1, 2, 3], rfl, by decide⟩
    · exact ⟨[0], [2, 3], rfl, by decide⟩
    · exact ⟨[0, 1], [3], rfl, by decide⟩
    · exact ⟨[0, 1, 2], [], rfl, by decide⟩
  have least : ∀ p : Fin 4 → Prop, (∃ i, p i) → ∃ i, p i ∧ ∀ j < i, ¬ p j := by
    intro p hp
    classical
    obtain ⟨i, hi⟩ := hp
    refine ⟨(Finset.univ.filter p).min' ⟨i, by simp [hi]⟩, ?_, ?_⟩
    · have := Finset.min'_mem (Finset.univ.filter p) ⟨i, by simp [hi]⟩
      simpa using this
    · intro j hj hpj
      have := Finset.min'_le (Finset.univ.filter p) j (by simp [hpj])
      exact absurd hj (not_lt.2 this)
  constructor
  · by_cases h : (loopOrigin sel f [0, 1, 2, 3] d none).1 = true
    · rw [if_pos h]
      obtain ⟨i, -, -, hi⟩ := (o1 _ _ _).1 h
      simp only [true_iff]
      exact ⟨i, hi⟩
    · rw [if_neg h, r1 _ (o3 _ _ _ (by simpa using h) (by simp))]
      simp [all]
  · by_cases h : ∃ i, sel i = true ∧ b i = true
    · obtain ⟨i, ⟨h1, h2⟩, h3⟩ := least _ h
      refine ⟨i, fun d' => ?_⟩
      dsimp only
      have h' : (loopOrigin sel f [0, 1, 2, 3] d' none).1 = true := (o1 _ _ _).2 ⟨i, all i, h1, h2⟩
      rw [if_pos h']
      intro _
      obtain ⟨l1, l2, e, hl⟩ := pre i
      have hlt : ∀ j < i, sel j = true → b j = false := by
        intro j hj hs
        have := h3 j hj
        by_contra hb
        exact this ⟨hs, by simpa using hb⟩
      exact ⟨o2 _ i l1 l2 e h1 h2 (fun j hj => hlt j ((hl j).1 hj)) _ _, h2, .inl ⟨h1, hlt⟩⟩
    · have hno : ∀ j, sel j = true → b j = false := by
        intro j hs
        by_contra hb
        exact h ⟨j, hs, by simpa using hb⟩
      have h' : ∀ d', ¬ (loopOrigin sel f [0, 1, 2, 3] d' none).1 = true := by
        intro d' hc
        obtain ⟨i, -, hi⟩ := (o1 _ _ _).1 hc
        exact h ⟨i, hi⟩
      by_cases hb : ∃ i, b i = true
      · obtain ⟨i, h2, h3⟩ := least _ hb
        refine ⟨i, fun d' => ?_⟩
        dsimp only
        rw [if_neg (h' d')]
        intro _
        obtain ⟨l1, l2, e, hl⟩ := pre i
        have hlt : ∀ j < i, b j = false := fun j hj => by simpa using h3 j hj
        exact ⟨r2 _ (o3 _ _ _ (by simpa using h' d') (by simp)) _ i l1 l2 e h2 (fun j hj => hlt j ((hl j).1 hj)) _,
          h2, .inr ⟨hno, hlt⟩⟩
      · refine ⟨0, fun d' => ?_⟩
        dsimp only
        rw [if_neg (h' d'), r1 _ (o3 _ _ _ (by simpa using h' d') (by simp))]
        rintro ⟨i, -, hi⟩
        exact absurd ⟨i, hi⟩ hb

/-- Boxes of leaves lie in the box of the node. -/
theorem leaves_in {n : HNode} (hn : Nested n) : ∀ b, boxOf n = some b → ∀ l ∈ leaves n,
    InBox b.lo b.hi l.lo ∧ InBox b.lo b.hi l.hi := by
  induction n with
  | null => intro b h; simp [boxOf] at h
  | node b0 occ ch ih =>
    intro b hb l hl
    simp only [boxOf, Option.some.injEq] at hb
    subst hb
    obtain ⟨hp, hc⟩ := hn
    cases occ with
    | true =>
      simp only [leaves, List.mem_singleton] at hl
      subst hl
      obtain ⟨p1, p2, p3⟩ := hp
      exact ⟨⟨le_rfl, p1, le_rfl, p2, le_rfl, p3⟩, ⟨p1, le_rfl, p2, le_rfl, p3, le_rfl⟩⟩
    | false =>
      have key : ∀ i, l ∈ leaves (ch i) → InBox b0.lo b0.hi l.lo ∧ InBox b0.lo b0.hi l.hi := by
        intro i hi
        cases hch : ch i with
        | null => rw [hch] at hi; simp [leaves] at hi
        | node b' o' ch' =>
          have hbo : boxOf (ch i) = some b' := by rw [hch]; rfl
          obtain ⟨q1, q2⟩ := ih i (hc i).1 b' hbo l hi
          obtain ⟨s1, s2⟩ := (hc i).2 b' hbo
          unfold InBox at *
          refine ⟨⟨?_, ?_, ?_, ?_, ?_, ?_⟩, ⟨?_, ?_, ?_, ?_, ?_, ?_⟩⟩ <;> linarith
      simp only [leaves, List.mem_append] at hl
      rcases hl with ((h | h) | h) | h
      · exact key 0 h
      · exact key 1 h
      · exact key 2 h
      · exact key 3 h

theorem mem_leaves {b0 : Box} {ch : Fin 4 → HNode} {l : Box} : l ∈ leaves (.node b0 false ch) ↔ ∃ i, l ∈ leaves (ch i) := by
  simp only [leaves, List.mem_append]
  constructor
  · rintro (((h | h) | h) | h)
    exacts [⟨0, h⟩, ⟨1, h⟩, ⟨2, h⟩, ⟨3, h⟩]
  · rintro ⟨i, h⟩
    fin_cases i
    exacts [.inl (.inl (.inl h)), .inl (.inl (.inr h)), .inl (.inr h), .inr h]

/-- Casting a ray on the tree: flag and distance, in terms of the leaves. -/
theorem cast {n : HNode} (hn : Nested n) (o d : Vec3) (t0 t1 : ℝ) :
    ∃ (hit : Bool) (D : ℝ), (∀ d0, (n.intersectRay (Ray.new o d) t0 t1 d0).1 = hit ∧
        (hit = true → (n.intersectRay (Ray.new o d) t0 t1 d0).2 = D)) ∧
      (hit = true ↔ ∃ l ∈ leaves n, (l.intersectRay (Ray.new o d) t0 t1 0).1 = true) ∧
      (hit = true → ∃ l ∈ leaves n, (l.intersectRay (Ray.new o d) t0 t1 0).1 = true ∧
        D = (l.intersectRay (Ray.new o d) t0 t1 0).2) := by
  induction n with
  | null =>
    refine ⟨false, 0, fun d0 => ⟨rfl, by simp⟩, by simp [leaves], by simp⟩
  | node b0 occ ch ih =>
    have hbox := fun d0 => box_init b0 o d t0 t1 d0 0
    cases hb : (b0.intersectRay (Ray.new o d) t0 t1 0).1 with
    | false =>
      refine ⟨false, 0, fun d0 => ⟨?_, by simp⟩, ?_, by simp⟩
      · unfold intersectRay
        simp [(hbox d0).1, hb]
      · simp only [Bool.false_eq_true, false_iff]
        rintro ⟨l, hl, hh⟩
        obtain ⟨q1, q2⟩ := leaves_in hn b0 rfl l hl
        rw [box_mono q1 q2 o d hh] at hb
        simp at hb
    | true =>
      cases occ with
      | true =>
        refine ⟨true, (b0.intersectRay (Ray.new o d) t0 t1 0).2, fun d0 => ⟨?_, fun _ => ?_⟩, ?_, fun _ => ?_⟩
        · unfold intersectRay
          simp [(hbox d0).1, hb]
        · unfold intersectRay
          simp [(hbox d0).1, hb, (hbox d0).2 ((hbox d0).1.trans hb)]
        · simp [leaves, hb]
        · exact ⟨b0, by simp [leaves], hb, rfl⟩
      | false =>
        choose b g h1 h2 h3 using fun i => ih i (hn.2 i).1
        have eq : ∀ d0, (HNode.node b0 false ch).intersectRay (Ray.new o d) t0 t1 d0 =
            (let first := loopOrigin (fun i => (ch i).boxContains (Ray.new o d).origin)
              (fun i d' => intersectRay (ch i) (Ray.new o d) t0 t1 d') [0, 1, 2, 3]
              (b0.intersectRay (Ray.new o d) t0 t1 d0).2 none
            if first.1 then (true, first.2.1) else loopRest first.2.2
              (fun i d' => intersectRay (ch i) (Ray.new o d) t0 t1 d') [0, 1, 2, 3] first.2.1) := by
          intro d0
          conv_lhs => unfold intersectRay
          simp [(hbox d0).1, hb]
        have L := fun d' => loops (sel := fun i => (ch i).boxContains (Ray.new o d).origin) h1 d'
        obtain ⟨-, i, hi⟩ := L 0
        classical
        refine ⟨decide (∃ i, b i = true), g i, fun d0 => ⟨?_, fun hh => ?_⟩, ?_, fun hh => ?_⟩
        · rw [eq d0, Bool.eq_iff_iff, decide_eq_true_eq]
          exact (L _).1
        · rw [eq d0]
          exact (hi _ ((L _).1.2 (by simpa using hh))).1
        · simp only [decide_eq_true_eq, h2, mem_leaves]
          constructor
          · rintro ⟨i, l, h, h'⟩; exact ⟨l, ⟨i, h⟩, h'⟩
          · rintro ⟨l, ⟨i, h⟩, h'⟩; exact ⟨i, l, h, h'⟩
        · have := (hi 0 ((L 0).1.2 (by simpa using hh))).2.1
          obtain ⟨l, hl, q⟩ := h3 i this
          exact ⟨l, mem_leaves.2 ⟨i, hl⟩, q⟩

end HNode

namespace HeightMap

/-- A leaf of the quad tree lies in the region of the tree. -/
theorem leaf_region {H : ℕ → ℕ → ℝ} {res : ℝ} (hr : 0 ≤ res) {k x0 y0 : ℕ} {l : Box}
    (hl : l ∈ leaves (quad H res k x0 y0)) : (x0:ℝ) * res ≤ l.lo.x ∧ l.hi.x ≤ (x0 + 2 ^ k) * res ∧
      (y0:ℝ) * res ≤ l.lo.y ∧ l.hi.y ≤ (y0 + 2 ^ k) * res ∧ Proper l.lo l.hi ∧ l = Box.new l.lo l.hi := by
  have mul : ∀ {a b : ℝ}, a ≤ b → a * res ≤ b * res := fun h => mul_le_mul_of_nonneg_right h hr
  rw [leaves_quad] at hl
  simp only [List.mem_map, List.mem_filter, decide_eq_true_eq, mem_cells] at hl
  obtain ⟨c, ⟨⟨h1, h2, h3, h4⟩, h5⟩, rfl⟩ := hl
  have h1' : (x0:ℝ) ≤ c.1 := by exact_mod_cast h1
  have h2' : (c.1:ℝ) + 1 ≤ x0 + 2 ^ k := by exact_mod_cast h2
  have h3' : (y0:ℝ) ≤ c.2 := by exact_mod_cast h3
  have h4' : (c.2:ℝ) + 1 ≤ y0 + 2 ^ k := by exact_mod_cast h4
  exact ⟨mul h1', mul h2', mul h3', mul h4', ⟨mul (by linarith), mul (by linarith), h5.le⟩, rfl⟩

/-- For rays going up in x and y the reported column is the nearest. -/
theorem nearest {H : ℕ → ℕ → ℝ} {res : ℝ} (hr : 0 ≤ res) {o d u : Vec3} (hu : UnitAlong d u) (hx : 1e-9 ≤ u.x)
    (hy : 1e-9 ≤ u.y) (hz : 1e-9 ≤ |u.z|) {t0 t1 : ℝ} (h0 : 0 ≤ t0) (ht : t0 < t1) (k : ℕ) : ∀ (x0 y0 : ℕ) (d0 : ℝ),
    ((quad H res k x0 y0).intersectRay (Ray.new o d) t0 t1 d0).1 = true →
    ∀ l ∈ leaves (quad H res k x0 y0), (l.intersectRay (Ray.new o d) t0 t1 0).1 = true →
      ((quad H res k x0 y0).intersectRay (Ray.new o d) t0 t1 d0).2 ≤ (l.intersectRay (Ray.new o d) t0 t1 0).2 := by
  have hux : 0 < u.x := by linarith
  have huy : 0 < u.y := by linarith
  induction k with
  | zero =>
    intro x0 y0 d0 hh l hl hl'
    obtain ⟨hit, D, c1, c2, c3⟩ := HNode.cast (nested_quad H hr 0 x0 y0) o d t0 t1
    have hh' : hit = true := (c1 d0).1.symm.trans hh
    rw [(c1 d0).2 hh']
    obtain ⟨l', hl1, hl2, hl3⟩ := c3 hh'
    have : l' = l := by
      rw [leaves_quad, cells] at hl hl1
      simp only [List.mem_map, List.mem_filter, List.mem_singleton] at hl hl1
      obtain ⟨c, ⟨rfl, -⟩, rfl⟩ := hl
      obtain ⟨c', ⟨rfl, -⟩, rfl⟩ := hl1
      rfl
    rw [hl3, this]
  | succ k ih =>
    intro x0 y0 d0 hh l hl hl'
    obtain ⟨hit, D, c1, c2, c3⟩ := HNode.cast (nested_quad H hr (k + 1) x0 y0) o d t0 t1
    have hnull : maxH H x0 y0 (2 ^ (k + 1)) ≠ 0 := by
      intro hm
      rw [quad, if_pos hm] at hl
      simp [leaves] at hl
    generalize hch : (![quad H res k x0 y0, quad H res k (x0 + 2 ^ k) y0, quad H res k x0 (y0 + 2 ^ k),
        quad H res k (x0 + 2 ^ k) (y0 + 2 ^ k)] : Fin 4 → HNode) = ch
    -- coordinates of the lower corners of the children
    let X : Fin 4 → ℕ := ![x0, x0 + 2 ^ k, x0, x0 + 2 ^ k]
    let Y : Fin 4 → ℕ := ![y0, y0, y0 + 2 ^ k, y0 + 2 ^ k]
    have chq : ∀ i, ch i = quad H res k (X i) (Y i) := by
      intro i; rw [← hch]; fin_cases i <;> rfl
    obtain ⟨B, hq⟩ : ∃ B, quad H res (k + 1) x0 y0 = .node B false ch := by
      refine ⟨_, by rw [quad, if_neg hnull, hch]⟩
    rw [hq] at hh hl ⊢
    have hn : Nested (.node B false ch) := hq ▸ nested_quad H hr (k + 1) x0 y0
    choose b g h1 h2 h3 using fun i => HNode.cast (hn.2 i).1 o d t0 t1
    have hB : (B.intersectRay (Ray.new o d) t0 t1 d0).1 = true := by
      by_contra hc
      rw [Bool.not_eq_true] at hc
      unfold HNode.intersectRay at hh
      simp [hc] at hh
    have eq : (HNode.node B false ch).intersectRay (Ray.new o d) t0 t1 d0 =
        (let first := HNode.loopOrigin (fun i => (ch i).boxContains (Ray.new o d).origin)
          (fun i d' => HNode.intersectRay (ch i) (Ray.new o d) t0 t1 d') [0, 1, 2, 3]
          (B.intersectRay (Ray.new o d) t0 t1 d0).2 none
        if first.1 then (true, first.2.1) else HNode.loopRest first.2.2
          (fun i d' => HNode.intersectRay (ch i) (Ray.new o d) t0 t1 d') [0, 1, 2, 3] first.2.1) := by
      conv_lhs => unfold HNode.intersectRay
      simp [hB]
    obtain ⟨L1, i, L2⟩ := HNode.loops (sel := fun i => (ch i).boxContains (Ray.new o d).origin) h1
      (B.intersectRay (Ray.new o d) t0 t1 d0).2
    rw [eq] at hh ⊢
    obtain ⟨e, hbi, hsel⟩ := L2 _ hh
    rw [e]
    obtain ⟨j, hj⟩ := HNode.mem_leaves.1 hl
    have hbj : b j = true := (h2 j).2 ⟨l, hj, hl'⟩
    -- the distance of each child is at most that of its leaves
    have near : ∀ j, b j = true → ∀ l ∈ leaves (ch j), (l.intersectRay (Ray.new o d) t0 t1 0).1 = true →
        g j ≤ (l.intersectRay (Ray.new o d) t0 t1 0).2 := by
      intro j hbj l hj hl'
      have q := ih (X j) (Y j) 0
      rw [← chq j] at q
      rw [← (h1 j 0).2 hbj]
      exact q ((h1 j 0).1.trans hbj) l hj hl'
    refine le_trans ?_ (near j hbj l hj hl')
    -- where the ray enters and runs in a child that is hit
    have where_ : ∀ j, b j = true →
        (X j * res ≤ o.x + g j * u.x ∧ o.x + g j * u.x ≤ (X j + 2 ^ k) * res ∧
          Y j * res ≤ o.y + g j * u.y ∧ o.y + g j * u.y ≤ (Y j + 2 ^ k) * res) ∧
        ∃ t, t0 < t ∧ o.x + t * u.x ≤ (X j + 2 ^ k) * res ∧ o.y + t * u.y ≤ (Y j + 2 ^ k) * res := by
      intro j hbj
      obtain ⟨l', q1, q2, q3⟩ := h3 j hbj
      rw [chq j] at q1
      obtain ⟨r1, r2, r3, r4, r5, r6⟩ := leaf_region hr q1
      have c := C26_ray l'.lo l'.hi o d u t0 t1 0 r5 hu (by rw [abs_of_pos hux]; exact hx)
        (by rw [abs_of_pos huy]; exact hy) hz ht
      rw [← r6] at c
      obtain ⟨t, s1, s2, s3⟩ := c.1.1 q2
      have s4 := (c.2 q2).1
      rw [← q3] at s4
      simp only [Set.mem_ofPred_eq, InBox, along] at s3 s4
      exact ⟨⟨by linarith, by linarith, by linarith, by linarith⟩, t, s1, by linarith, by linarith⟩
    have inside : ∀ j, (ch j).boxContains (Ray.new o d).origin = true → X j * res ≤ o.x ∧ Y j * res ≤ o.y := by
      intro j hs
      rw [chq j] at hs
      cases hc : quad H res k (X j) (Y j) with
      | null => rw [hc] at hs; simp [HNode.boxContains] at hs
      | node b' _ _ =>
        have hb' := quad_box H res k (X j) (Y j) (b := b') (by rw [hc]; rfl)
        rw [hc] at hs
        simp only [HNode.boxContains, hb', Box.contains, decide_eq_true_eq, Box.new_lo, Box.new_hi] at hs
        exact ⟨hs.1, hs.2.2.1⟩
    obtain ⟨⟨a1, a2, a3, a4⟩, -⟩ := where_ i hbi
    obtain ⟨⟨b1, b2, b3, b4⟩, t, b5, b6, b7⟩ := where_ j hbj
    -- ordering by one coordinate
    have ordx : X i + 2 ^ k ≤ X j → g i ≤ g j := by
      intro hX
      have hX' : (X i:ℝ) + 2 ^ k ≤ X j := by exact_mod_cast hX
      have := mul_le_mul_of_nonneg_right hX' hr
      have : g i * u.x ≤ g j * u.x := by linarith
      exact le_of_mul_le_mul_right this hux
    have ordy : Y i + 2 ^ k ≤ Y j → g i ≤ g j := by
      intro hY
      have hY' : (Y i:ℝ) + 2 ^ k ≤ Y j := by exact_mod_cast hY
      have := mul_le_mul_of_nonneg_right hY' hr
      have : g i * u.y ≤ g j * u.y := by linarith
      exact le_of_mul_le_mul_right this huy
    -- a child from which the ray starts cannot be preferred to an earlier one
    have nox : (ch i).boxContains (Ray.new o d).origin = true → ¬ X j + 2 ^ k ≤ X i := by
      intro hs hX
      have hX' : (X j:ℝ) + 2 ^ k ≤ X i := by exact_mod_cast hX
      have := mul_le_mul_of_nonneg_right hX' hr
      have := (inside i hs).1
      have : 0 < t * u.x := mul_pos (by linarith) hux
      linarith
    have noy : (ch i).boxContains (Ray.new o d).origin = true → ¬ Y j + 2 ^ k ≤ Y i := by
      intro hs hY
      have hY' : (Y j:ℝ) + 2 ^ k ≤ Y i := by exact_mod_cast hY
      have := mul_le_mul_of_nonneg_right hY' hr
      have := (inside i hs).2
      have : 0 < t * u.y := mul_pos (by linarith) huy
      linarith
    by_cases hX : X i + 2 ^ k ≤ X j
    · exact ordx hX
    by_cases hY : Y i + 2 ^ k ≤ Y j
    · exact ordy hY
    by_cases hij : i = j
    · rw [hij]
    exfalso
    have hlt : j < i ∧ (X j + 2 ^ k ≤ X i ∨ Y j + 2 ^ k ≤ Y i) := by
      fin_cases i <;> fin_cases j <;> simp [X, Y] at hX hY hij ⊢
    rcases hsel with ⟨s1, -⟩ | ⟨-, s2⟩
    · rcases hlt.2 with h | h
      · exact nox s1 h
      · exact noy s1 h
    · have := s2 j hlt.1
      rw [hbj] at this
      simp at this

end HeightMap
end Geo
