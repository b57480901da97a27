import Verif.Lemmas.Mesh
import Mathlib.Algebra.Order.Floor.Ring

/-! # Helper lemmas about vertex merging and index validity -/

namespace Geo

open Spec

theorem trunc_bounds {x : ℝ} {N : ℤ} (hx : |x| < N) : -N < trunc x ∧ trunc x < N := by
  obtain ⟨h1, h2⟩ := abs_lt.1 hx
  unfold trunc
  split_ifs with h
  · constructor
    · have : (0:ℤ) ≤ ⌊x⌋ := Int.floor_nonneg.2 h
      have : (0:ℝ) < N := lt_of_le_of_lt (abs_nonneg x) hx
      have : 0 < N := by exact_mod_cast this
      omega
    · exact Int.floor_lt.2 h2
  · constructor
    · rw [Int.lt_ceil]; push_cast; linarith
    · have : ⌈x⌉ ≤ 0 := Int.ceil_le.2 (by push_cast; linarith)
      have : (0:ℝ) < N := lt_of_le_of_lt (abs_nonneg x) hx
      have : 0 < N := by exact_mod_cast this
      omega

theorem castInt_ok {x : ℝ} (hx : |x| < 2 ^ 31) : castInt x = .ok (trunc x) := by
  have := trunc_bounds (x := x) (N := 2 ^ 31) (by push_cast; norm_num at hx ⊢; exact hx)
  unfold castInt
  rw [if_pos]
  omega

theorem trunc_cases (x : ℝ) : (trunc x = 0 ∧ |x| < 1) ∨
    (0 < trunc x ∧ (trunc x : ℝ) ≤ x ∧ x < trunc x + 1) ∨
    (trunc x < 0 ∧ (trunc x : ℝ) - 1 < x ∧ x ≤ trunc x) := by
  unfold trunc
  split_ifs with h
  · have h0 : (0:ℤ) ≤ ⌊x⌋ := Int.floor_nonneg.2 h
    rcases h0.eq_or_lt with h1 | h1
    · left
      refine ⟨h1.symm, ?_⟩
      rw [abs_of_nonneg h]
      have := Int.lt_floor_add_one x
      rw [← h1] at this; simpa using this
    · right; left
      exact ⟨h1, Int.floor_le x, Int.lt_floor_add_one x⟩
  · have h0 : ⌈x⌉ ≤ 0 := Int.ceil_le.2 (by push_cast; linarith)
    rcases h0.eq_or_lt with h1 | h1
    · left
      refine ⟨h1, ?_⟩
      rw [abs_of_nonpos (by linarith)]
      have := Int.ceil_lt_add_one x
      have h2 : (⌈x⌉ : ℝ) - 1 < x := by linarith
      rw [h1] at h2; simp at h2; linarith
    · right; right
      refine ⟨h1, ?_, Int.le_ceil x⟩
      have := Int.ceil_lt_add_one x; linarith

theorem trunc_of_pos {x : ℝ} {k : ℤ} (hk : 0 < k) (h1 : (k:ℝ) ≤ x) (h2 : x < k + 1) :
    trunc x = k := by
  have : (0:ℝ) < k := by exact_mod_cast hk
  unfold trunc
  rw [if_pos (by linarith)]
  exact Int.floor_eq_iff.2 ⟨h1, h2⟩

theorem trunc_of_neg {x : ℝ} {k : ℤ} (hk : k < 0) (h1 : (k:ℝ) - 1 < x) (h2 : x ≤ k) :
    trunc x = k := by
  have : (k:ℝ) < 0 := by exact_mod_cast hk
  unfold trunc
  rw [if_neg (by linarith)]
  exact Int.ceil_eq_iff.2 ⟨h1, h2⟩

theorem trunc_of_small {x : ℝ} (h : |x| < 1) : trunc x = 0 := by
  have := trunc_bounds (x := x) (N := 1) (by push_cast; exact h)
  omega

theorem trunc_eq_iff (x y : ℝ) : trunc (1000 * x) = trunc (1000 * y) ↔ SameCell x y := by
  constructor
  · intro h
    refine ⟨trunc (1000 * x), ?_⟩
    rcases trunc_cases (1000 * x) with ⟨h0, h1⟩ | ⟨h0, h1, h2⟩ | ⟨h0, h1, h2⟩ <;>
    rcases trunc_cases (1000 * y) with ⟨k0, k1⟩ | ⟨k0, k1, k2⟩ | ⟨k0, k1, k2⟩ <;>
    rw [← h] at k0
    · left; exact ⟨h1, k1, h0⟩
    all_goals try omega
    · right; left; rw [← h] at k1 k2; exact ⟨h0, h1, h2, k1, k2⟩
    · right; right; rw [← h] at k1 k2; exact ⟨h0, h1, h2, k1, k2⟩
  · rintro ⟨k, ⟨h1, h2, _⟩ | ⟨h0, h1, h2, h3, h4⟩ | ⟨h0, h1, h2, h3, h4⟩⟩
    · rw [trunc_of_small h1, trunc_of_small h2]
    · rw [trunc_of_pos h0 h1 h2, trunc_of_pos h0 h3 h4]
    · rw [trunc_of_neg h0 h1 h2, trunc_of_neg h0 h3 h4]

theorem sameCell_close {x y : ℝ} (h : SameCell x y) :
    |x - y| < 2 / 1000 ∧ (1 / 1000 ≤ |x| → |x - y| < 1 / 1000) := by
  obtain ⟨k, ⟨h1, h2, _⟩ | ⟨h0, h1, h2, h3, h4⟩ | ⟨h0, h1, h2, h3, h4⟩⟩ := h
  · rw [abs_lt] at h1 h2
    refine ⟨abs_lt.2 ⟨by linarith, by linarith⟩, fun h => ?_⟩
    exfalso
    rcases le_abs.1 h with h | h <;> linarith
  · have : |x - y| < 1 / 1000 := abs_lt.2 ⟨by linarith, by linarith⟩
    exact ⟨by linarith, fun _ => this⟩
  · have : |x - y| < 1 / 1000 := abs_lt.2 ⟨by linarith, by linarith⟩
    exact ⟨by linarith, fun _ => this⟩

namespace Mesh

/-- The cell of a point. -/
noncomputable def key (v : Vec3) : ℤ × ℤ × ℤ :=
  (trunc (1000 * v.x), trunc (1000 * v.y), trunc (1000 * v.z))

theorem cellKey_ok {v : Vec3} (h : InIntRange v) : cellKey v = .ok (key v) := by
  unfold cellKey
  rw [castInt_ok h.1, castInt_ok h.2.1, castInt_ok h.2.2]
  rfl

theorem key_eq_iff (p q : Vec3) : key p = key q ↔ SameCell3 p q := by
  unfold key SameCell3
  simp only [Prod.mk.injEq, trunc_eq_iff]

/-- Loop invariant of the vertex merge. -/
structure FInv (dn pts : List Vec3) (xyz : List ((ℤ × ℤ × ℤ) × ℕ)) (imap : List ℕ) : Prop where
  sub : pts.Sublist dn
  len : imap.length = dn.length
  nodup : (pts.map key).Nodup
  look : ∀ (k : ℤ × ℤ × ℤ) (i : ℕ), xyz.lookup k = some i ↔ ∃ p, pts[i]? = some p ∧ key p = k
  tr : ∀ (j : ℕ) v, dn[j]? = some v → ∃ (i : ℕ) (q : Vec3), imap[j]? = some i ∧ pts[i]? = some q ∧ key q = key v

theorem lookup_cons_iff {k k' : ℤ × ℤ × ℤ} {a : ℕ} {l : List ((ℤ × ℤ × ℤ) × ℕ)} {i : ℕ} :
    List.lookup k ((k', a) :: l) = some i ↔ (k = k' ∧ a = i) ∨ (k ≠ k' ∧ l.lookup k = some i) := by
  by_cases h : k = k'
  · subst h; simp [List.lookup]
  · have : (k == k') = false := by simpa using h
    simp [List.lookup, this, h]

theorem FInv.step_old {dn pts xyz imap v i} (h : FInv dn pts xyz imap)
    (hl : xyz.lookup (key v) = some i) : FInv (dn ++ [v]) pts xyz (imap ++ [i]) := by
  refine ⟨h.sub.trans (List.sublist_append_left _ _), by simp [h.len], h.nodup, h.look, ?_⟩
  intro j w hj
  rw [List.getElem?_append] at hj
  split_ifs at hj with hlt
  · obtain ⟨i', q, a, b, c⟩ := h.tr j w hj
    refine ⟨i', q, ?_, b, c⟩
    rw [List.getElem?_append_left (by rw [h.len]; exact hlt)]; exact a
  · have hj0 : j = dn.length := by
      by_contra hne
      have : j - dn.length ≠ 0 := by omega
      simp [this] at hj
    subst hj0
    simp at hj
    subst hj
    obtain ⟨p, hp, hk⟩ := (h.look _ _).1 hl
    exact ⟨i, p, by simp [← h.len], hp, hk⟩

theorem FInv.step_new {dn pts xyz imap v} (h : FInv dn pts xyz imap)
    (hl : xyz.lookup (key v) = none) : FInv (dn ++ [v]) (pts ++ [v])
      ((key v, pts.length) :: xyz) (imap ++ [pts.length]) := by
  have hnew : ∀ (i : ℕ) (p : Vec3), pts[i]? = some p → key p ≠ key v := by
    intro i p hp hk
    have := (h.look (key v) i).2 ⟨p, hp, hk⟩
    rw [hl] at this; simp at this
  have hlt : ∀ (i : ℕ) (p : Vec3), pts[i]? = some p → i < pts.length := fun i p hp =>
    (List.getElem?_eq_some_iff.1 hp).1
  refine ⟨List.Sublist.append h.sub (List.Sublist.refl _), by simp [h.len], ?_, ?_, ?_⟩
  · rw [List.map_append, List.nodup_append]
    refine ⟨h.nodup, by simp, ?_⟩
    intro a ha b hb
    simp at hb; subst hb
    obtain ⟨p, hp, rfl⟩ := List.mem_map.1 ha
    obtain ⟨i, hi⟩ := List.mem_iff_getElem?.1 hp
    exact hnew i p hi
  · intro k i
    rw [lookup_cons_iff]
    constructor
    · rintro (⟨rfl, rfl⟩ | ⟨_, h2⟩)
      · exact ⟨v, by simp, rfl⟩
      · obtain ⟨p, hp, hk⟩ := (h.look _ _).1 h2
        exact ⟨p, by rw [List.getElem?_append_left (hlt i p hp)]; exact hp, hk⟩
    · rintro ⟨p, hp, rfl⟩
      rw [List.getElem?_append] at hp
      split_ifs at hp with hi
      · right; exact ⟨hnew i p hp, (h.look _ _).2 ⟨p, hp, rfl⟩⟩
      · left
        have hi0 : i = pts.length := by
          by_contra hne
          have : i - pts.length ≠ 0 := by omega
          simp [this] at hp
        subst hi0
        simp at hp
        subst hp; simp
  · intro j w hj
    rw [List.getElem?_append] at hj
    split_ifs at hj with hlt'
    · obtain ⟨i', q, a, b, c⟩ := h.tr j w hj
      refine ⟨i', q, ?_, ?_, c⟩
      · rw [List.getElem?_append_left (by rw [h.len]; exact hlt')]; exact a
      · rw [List.getElem?_append_left (hlt _ _ b)]; exact b
    · have hj0 : j = dn.length := by
        by_contra hne
        have : j - dn.length ≠ 0 := by omega
        simp [this] at hj
      subst hj0
      simp at hj
      subst hj
      exact ⟨pts.length, v, by simp [← h.len], by simp, rfl⟩

theorem filterLoop_inv {vs dn pts xyz imap} (hr : ∀ v ∈ vs, InIntRange v)
    (hlen : (dn ++ vs).length ≤ 2 ^ 32) (h : FInv dn pts xyz imap) :
    ∃ pts' xyz' imap', filterLoop vs pts xyz imap = .ok (pts', imap') ∧
      FInv (dn ++ vs) pts' xyz' imap' := by
  induction vs generalizing dn pts xyz imap with
  | nil => exact ⟨pts, xyz, imap, rfl, by simpa using h⟩
  | cons v vs ih =>
    have hk := cellKey_ok (hr v (by simp))
    have hr' : ∀ v ∈ vs, InIntRange v := fun w hw => hr w (by simp [hw])
    have hlen' : ((dn ++ [v]) ++ vs).length ≤ 2 ^ 32 := by simpa using hlen
    have hsub : pts.length ≤ dn.length := h.sub.length_le
    have hu : u32 pts.length = pts.length := by
      unfold u32
      apply Nat.mod_eq_of_lt
      simp at hlen; omega
    cases hl : xyz.lookup (key v) with
    | some i =>
      obtain ⟨p', x', m', h1, h2⟩ := ih hr' hlen' (h.step_old hl)
      refine ⟨p', x', m', ?_, by simpa using h2⟩
      unfold filterLoop
      rw [hk]
      simp only [bind, Except.bind, hl]
      exact h1
    | none =>
      obtain ⟨p', x', m', h1, h2⟩ := ih hr' hlen' (h.step_new hl)
      refine ⟨p', x', m', ?_, by simpa using h2⟩
      unfold filterLoop
      rw [hk]
      simp only [bind, Except.bind, hl, hu]
      exact h1

theorem FInv.init : FInv [] [] [] [] := by
  refine ⟨List.Sublist.refl _, rfl, by simp, by simp, by simp⟩

theorem filterLoop_distinct {vs pts xyz imap} (hr : ∀ v ∈ vs, InIntRange v)
    (hlen : (pts ++ vs).length ≤ 2 ^ 32) (hn : ((pts ++ vs).map key).Nodup)
    (hx : ∀ k i, xyz.lookup k = some i → ∃ p ∈ pts, key p = k) :
    filterLoop vs pts xyz imap =
      .ok (pts ++ vs, imap ++ List.range' pts.length vs.length) := by
  induction vs generalizing pts xyz imap with
  | nil => simp [filterLoop]
  | cons v vs ih =>
    have hk := cellKey_ok (hr v (by simp))
    have hl : xyz.lookup (key v) = none := by
      cases hl : xyz.lookup (key v) with
      | none => rfl
      | some i =>
        exfalso
        obtain ⟨p, hp, hpk⟩ := hx _ _ hl
        rw [List.map_append, List.nodup_append] at hn
        exact hn.2.2 (key p) (List.mem_map.2 ⟨p, hp, rfl⟩) (key v) (by simp) hpk
    have hu : u32 pts.length = pts.length := by
      unfold u32
      apply Nat.mod_eq_of_lt
      simp at hlen; omega
    unfold filterLoop
    rw [hk]
    simp only [bind, Except.bind, hl, hu]
    rw [ih (fun w hw => hr w (by simp [hw])) (by simpa using hlen) (by simpa using hn)]
    · simp [List.range'_succ]
    · intro k i hki
      rw [lookup_cons_iff] at hki
      rcases hki with ⟨rfl, _⟩ | ⟨_, h⟩
      · exact ⟨v, by simp, rfl⟩
      · obtain ⟨p, hp, h⟩ := hx _ _ h
        exact ⟨p, by simp [hp], h⟩

theorem relabel_ok {imap : List ℕ} {t t' : TriI} :
    ((do
        let a ← vget imap t.i1
        let b ← vget imap t.i2
        let c ← vget imap t.i3
        return (⟨a, b, c⟩ : TriI)) : Exec TriI) = .ok t' ↔
      imap[t.i1]? = some t'.i1 ∧ imap[t.i2]? = some t'.i2 ∧ imap[t.i3]? = some t'.i3 := by
  simp only [Exec.bind_ok, vget_ok, pure, Except.pure, Except.ok.injEq]
  constructor
  · rintro ⟨a, ha, b, hb, c, hc, rfl⟩; exact ⟨ha, hb, hc⟩
  · rintro ⟨ha, hb, hc⟩; exact ⟨_, ha, _, hb, _, hc, rfl⟩

/-- Full description of the result of the vertex merge. -/
theorem filter_spec {m : Mesh} (hv : Valid m.points m.tris) (hr : ∀ p ∈ m.points, InIntRange p)
    (hlen : m.points.length ≤ 2 ^ 32) :
    ∃ (m' : Mesh) (imap : List ℕ), m.filterOverlappingVertices = .ok m' ∧ m'.points.Sublist m.points ∧
      (m'.points.map key).Nodup ∧
      (∀ (j : ℕ) v, m.points[j]? = some v → ∃ (i : ℕ) (q : Vec3), imap[j]? = some i ∧ m'.points[i]? = some q ∧
        key q = key v) ∧
      List.Forall₂ (fun t t' : TriI => imap[t.i1]? = some t'.i1 ∧ imap[t.i2]? = some t'.i2 ∧
        imap[t.i3]? = some t'.i3) m.tris m'.tris := by
  obtain ⟨pts, xyz, imap, h1, h2⟩ := filterLoop_inv (dn := []) hr (by simpa using hlen) FInv.init
  simp only [List.nil_append] at h2
  have h3 : ∃ ts, m.tris.mapM (fun t => (do
        let a ← vget imap t.i1
        let b ← vget imap t.i2
        let c ← vget imap t.i3
        return (⟨a, b, c⟩ : TriI))) = .ok ts := by
    refine ⟨m.tris.map (fun t => ⟨imap[t.i1]!, imap[t.i2]!, imap[t.i3]!⟩), mapM_ok_of ?_⟩
    intro t ht
    rw [relabel_ok]
    obtain ⟨a, b, c⟩ := hv t ht
    rw [← h2.len] at a b c
    simp [a, b, c]
  obtain ⟨ts, h3⟩ := h3
  refine ⟨{ (if m.points.isEmpty then m else invalidateCache m) with points := pts, tris := ts },
    imap, ?_, h2.sub, h2.nodup, h2.tr, ?_⟩
  · unfold filterOverlappingVertices
    rw [h1]
    simp only [bind, Except.bind, pure, Except.pure] at h3 ⊢
    rw [h3]
  · rw [mapM_ok_iff] at h3
    simpa only [relabel_ok] using h3

theorem filter_idem {m : Mesh} (hv : Valid m.points m.tris) (hr : ∀ p ∈ m.points, InIntRange p)
    (hlen : m.points.length ≤ 2 ^ 32) (hn : (m.points.map key).Nodup) :
    ∃ m', m.filterOverlappingVertices = .ok m' ∧ m'.points = m.points ∧ m'.tris = m.tris := by
  have h1 := filterLoop_distinct (pts := []) (xyz := []) (imap := []) hr (by simpa using hlen)
    (by simpa using hn) (by simp)
  simp only [List.nil_append, List.length_nil] at h1
  have h3 : m.tris.mapM (fun t => (do
        let a ← vget (List.range' 0 m.points.length) t.i1
        let b ← vget (List.range' 0 m.points.length) t.i2
        let c ← vget (List.range' 0 m.points.length) t.i3
        return (⟨a, b, c⟩ : TriI))) = .ok (m.tris.map id) := by
    apply mapM_ok_of
    intro t ht
    rw [relabel_ok]
    obtain ⟨a, b, c⟩ := hv t ht
    simp [a, b, c]
  rw [List.map_id] at h3
  refine ⟨{ (if m.points.isEmpty then m else invalidateCache m) with
    points := m.points, tris := m.tris }, ?_, ?_⟩
  · unfold filterOverlappingVertices
    rw [h1]
    simp only [bind, Except.bind, pure, Except.pure] at h3 ⊢
    rw [h3]
  · exact ⟨rfl, rfl⟩

theorem valid_of_filter {ps ps' : List Vec3} {ts ts' : List TriI} {imap : List ℕ}
    (hv : Valid ps ts)
    (h : ∀ (j : ℕ) v, ps[j]? = some v → ∃ (i : ℕ) (q : Vec3), imap[j]? = some i ∧ ps'[i]? = some q ∧
        key q = key v)
    (h2 : List.Forall₂ (fun t t' : TriI => imap[t.i1]? = some t'.i1 ∧ imap[t.i2]? = some t'.i2 ∧
        imap[t.i3]? = some t'.i3) ts ts') : Valid ps' ts' := by
  induction h2 with
  | nil => simp [Valid]
  | @cons t t' ts ts' h1 _ ih =>
    intro s hs
    rcases List.mem_cons.1 hs with rfl | hs
    · obtain ⟨a, b, c⟩ := hv t (by simp)
      have aux : ∀ j i : ℕ, j < ps.length → imap[j]? = some i → i < ps'.length := by
        intro j i hj hi
        obtain ⟨i', q, h3, h4, _⟩ := h j ps[j] (by simp [hj])
        rw [hi] at h3
        simp at h3
        subst h3
        exact (List.getElem?_eq_some_iff.1 h4).1
      exact ⟨aux _ _ a h1.1, aux _ _ b h1.2.1, aux _ _ c h1.2.2⟩
    · exact ih (fun t ht => hv t (by simp [ht])) s hs

end Mesh
end Geo

namespace Geo
open Spec
namespace Mesh

theorem step_valid {m : Mesh} {o : Op} (hv : Valid m.points m.tris)
    (hl : m.points.length ≤ 2 ^ 32) (ho : CallOk m.points o) :
    ∃ m', m.step o = .ok m' ∧ Valid m'.points m'.tris ∧ m'.points.length ≤ 2 ^ 32 := by
  cases o with
  | addPoint p =>
    refine ⟨_, rfl, ?_, ?_⟩
    · intro t ht
      obtain ⟨a, b, c⟩ := hv t ht
      simp only [addPoint, invalidateCache, List.length_append, List.length_singleton]
      omega
    · simp only [CallOk] at ho
      simp only [addPoint, invalidateCache, List.length_append, List.length_singleton]
      omega
  | addTriangle i j k =>
    refine ⟨_, rfl, ?_, hl⟩
    intro t ht
    simp only [addTriangle, invalidateCache, List.mem_append, List.mem_singleton] at ht ⊢
    rcases ht with ht | rfl
    · exact hv t ht
    · exact ho
  | add n =>
    obtain ⟨h1, h2⟩ := ho
    refine ⟨_, rfl, ?_, ?_⟩
    · intro t ht
      simp only [add, invalidateCache, List.mem_append, List.mem_map, List.length_append] at ht ⊢
      rcases ht with ht | ⟨s, hs, rfl⟩
      · obtain ⟨a, b, c⟩ := hv t ht; omega
      · obtain ⟨a, b, c⟩ := h1 s hs
        simp only [u32]
        have hm := Nat.mod_le m.points.length (2 ^ 32)
        refine ⟨?_, ?_, ?_⟩ <;> refine lt_of_le_of_lt (Nat.mod_le _ _) ?_ <;> omega
    · simp only [add, invalidateCache, List.length_append]; omega
  | addSelf => exact absurd ho (by simp [CallOk])
  | clear => exact ⟨_, rfl, by simp [clear, invalidateCache, Valid], by simp [clear, invalidateCache]⟩
  | filter =>
    obtain ⟨m', imap, h1, h2, _, h4, h5⟩ := filter_spec hv ho hl
    exact ⟨m', h1, valid_of_filter hv h4 h5, le_trans h2.length_le hl⟩
  | transform T =>
    refine ⟨_, rfl, ?_, ?_⟩
    · intro t ht
      simpa [getTransformed] using hv t ht
    · simpa [getTransformed] using hl
  | queryTriangles =>
    have : ∃ m', m.step .queryTriangles = .ok m' := by
      obtain ⟨l, h⟩ := soup_valid hv
      simp only [step, getTriangles, h]
      split_ifs <;> exact ⟨_, rfl⟩
    obtain ⟨m', h⟩ := this
    obtain ⟨h1, h2⟩ := query_same rfl h
    exact ⟨m', h, by rw [h1, h2]; exact hv, by rw [h1]; exact hl⟩
  | querySquaredMaxRadius =>
    have h : m.step .querySquaredMaxRadius = .ok m.getSquaredMaxRadius.1 := rfl
    obtain ⟨h1, h2⟩ := query_same rfl h
    exact ⟨_, h, by rw [h1, h2]; exact hv, by rw [h1]; exact hl⟩
  | queryMaxRadius =>
    have h : m.step .queryMaxRadius = .ok m.getMaxRadius.1 := rfl
    obtain ⟨h1, h2⟩ := query_same rfl h
    exact ⟨_, h, by rw [h1, h2]; exact hv, by rw [h1]; exact hl⟩

theorem run_valid {m : Mesh} {os : List Op} (hv : Valid m.points m.tris)
    (hl : m.points.length ≤ 2 ^ 32) (ho : Admissible m os) :
    ∃ m', m.run os = .ok m' ∧ Valid m'.points m'.tris := by
  induction os generalizing m with
  | nil => exact ⟨m, rfl, hv⟩
  | cons o os ih =>
    obtain ⟨h1, h2⟩ := ho
    obtain ⟨m1, e, hv1, hl1⟩ := step_valid hv hl h1
    obtain ⟨m', e', hv'⟩ := ih hv1 hl1 (h2 m1 e)
    refine ⟨m', ?_, hv'⟩
    simp only [run, e]
    exact e'

theorem getTriangleNormal_ok {m : Mesh} (hv : Valid m.points m.tris) {i : ℕ} (hi : i < m.tris.length) :
    ∃ n, m.getTriangleNormal i = .ok n := by
  obtain ⟨a, b, c⟩ := hv m.tris[i] (List.getElem_mem hi)
  unfold getTriangleNormal
  rw [vget_lt hi]
  simp only [bind, Except.bind, vget_lt a, vget_lt b, vget_lt c]
  exact ⟨_, rfl⟩

theorem step_stable {m m' : Mesh} {o : Op} (h : m.step o = .ok m') (hr : ¬ Renumbers o) {i : ℕ}
    {p : Vec3} (hp : m.points[i]? = some p) : m'.points[i]? = some p := by
  have hlt := (List.getElem?_eq_some_iff.1 hp).1
  cases o with
  | addPoint q =>
    simp [step, addPoint] at h; subst h
    simp only [invalidateCache]; rw [List.getElem?_append_left hlt]; exact hp
  | addTriangle a b c =>
    simp [step, addTriangle] at h; subst h; exact hp
  | add n =>
    simp [step, add] at h; subst h
    simp only [invalidateCache]; rw [List.getElem?_append_left hlt]; exact hp
  | addSelf => simp [step, addSelf] at h
  | clear => simp [Renumbers] at hr
  | filter => simp [Renumbers] at hr
  | transform T => simp [Renumbers] at hr
  | queryTriangles => rw [(query_same rfl h).1]; exact hp
  | querySquaredMaxRadius => rw [(query_same rfl h).1]; exact hp
  | queryMaxRadius => rw [(query_same rfl h).1]; exact hp

theorem run_stable {m m' : Mesh} {os : List Op} (h : m.run os = .ok m')
    (hr : ∀ o ∈ os, ¬ Renumbers o) {i : ℕ}
    {p : Vec3} (hp : m.points[i]? = some p) : m'.points[i]? = some p := by
  induction os generalizing m with
  | nil => simp [run] at h; subst h; exact hp
  | cons o os ih =>
    simp only [run, Exec.bind_ok] at h
    obtain ⟨m1, h1, h2⟩ := h
    exact ih h2 (fun o ho => hr o (by simp [ho])) (step_stable h1 (hr o (by simp)) hp)

theorem soup_shift {ps qs : List Vec3} {ts : List TriI} {l} (hl : ps.length + qs.length ≤ 2 ^ 32)
    (hq : qs ≠ [] ∨ ts = [])
    (h : soup qs ts = some l) : soup (ps ++ qs) (ts.map fun t =>
      (⟨u32 (t.i1 + u32 ps.length), u32 (t.i2 + u32 ps.length), u32 (t.i3 + u32 ps.length)⟩ : TriI))
      = some l := by
  rw [soup_some] at h ⊢
  induction h with
  | nil => exact .nil
  | @cons t c ts l h1 _ ih =>
    have hq' : 0 < qs.length := by
      rcases hq with h | h
      · exact List.length_pos_of_ne_nil h
      · simp at h
    refine .cons ?_ (ih (Or.inl (List.length_pos_iff.1 hq')))
    have key : ∀ (i : ℕ) (a : Vec3), qs[i]? = some a →
        (ps ++ qs)[u32 (i + u32 ps.length)]? = some a := by
      intro i a ha
      have hi := (List.getElem?_eq_some_iff.1 ha).1
      have e1 : u32 ps.length = ps.length := Nat.mod_eq_of_lt (by omega)
      have e2 : u32 (i + ps.length) = i + ps.length := Nat.mod_eq_of_lt (by omega)
      rw [e1, e2, List.getElem?_append_right (by omega)]
      simpa using ha
    exact ⟨key _ _ h1.1, key _ _ h1.2.1, key _ _ h1.2.2⟩

theorem soup_append {ps qs : List Vec3} {ts us : List TriI} {l k} (h1 : soup ps ts = some l)
    (h2 : soup (ps ++ qs) us = some k) : soup (ps ++ qs) (ts ++ us) = some (l ++ k) := by
  rw [soup_some] at *
  refine List.rel_append ?_ h2
  refine h1.imp ?_
  rintro t c ⟨a, b, d⟩
  refine ⟨?_, ?_, ?_⟩ <;> rw [List.getElem?_append_left] <;>
    first | assumption | exact (List.getElem?_eq_some_iff.1 ‹_›).1

end Mesh
end Geo
