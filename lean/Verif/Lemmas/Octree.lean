import Verif.Spec.Octree
import Verif.Lemmas.Composite

/-!
# Helper lemmas for octrees
-/

namespace Geo

open Spec

/-! ## Unbounded loops -/

/-- More fuel does not change the outcome. -/
def Steady {α : Type _} (f : ℕ → Exec α) : Prop := ∀ n, f n ≠ .error .hang → f (n + 1) = f n

theorem Steady.le {α : Type _} {f : ℕ → Exec α} (h : Steady f) {n m : ℕ} (hn : f n ≠ .error .hang)
    (hm : n ≤ m) : f m = f n := by
  induction m, hm using Nat.le_induction with
  | base => rfl
  | succ m _ ih => rw [h m (by rw [ih]; exact hn), ih]

theorem Steady.eq {α : Type _} {f : ℕ → Exec α} (h : Steady f) {n : ℕ} {x : Exec α} (hx : f n = x)
    (hh : x ≠ .error .hang) : unbounded f = x := by
  classical
  have hex : ∃ n, f n ≠ .error .hang := ⟨n, by rw [hx]; exact hh⟩
  unfold unbounded
  rw [dif_pos hex, ← hx]
  have h1 := Nat.find_spec hex
  rcases le_total n (Nat.find hex) with hle | hle
  · exact h.le (by rw [hx]; exact hh) hle
  · exact (h.le h1 hle).symm

theorem unbounded_ok {α : Type _} {f : ℕ → Exec α} {a : α} (h : unbounded f = .ok a) :
    ∃ n, f n = .ok a := by
  classical
  unfold unbounded at h
  split_ifs at h with hex
  exact ⟨_, h⟩

/-! ## Cells along an axis -/

/-- The interval chosen on one axis by descending `k` levels. -/
noncomputable def axisIdx : ℕ → ℝ → ℝ → ℕ
  | 0, _, _ => 0
  | k + 1, s, x => if x > s / 2 then 2 ^ k + axisIdx k (s / 2) (x - s / 2) else axisIdx k (s / 2) x

theorem axisIdx_lt (k : ℕ) (s x : ℝ) : axisIdx k s x < 2 ^ k := by
  induction k generalizing s x with
  | zero => simp [axisIdx]
  | succ k ih =>
    unfold axisIdx
    have h1 := ih (s / 2) (x - s / 2)
    have h2 := ih (s / 2) x
    rw [pow_succ]
    split_ifs <;> omega

theorem axisIdx_spec (k : ℕ) (r x : ℝ) : InSlab r (2 ^ k) (axisIdx k (r * 2 ^ k) x) x := by
  refine ⟨axisIdx_lt _ _ _, ?_⟩
  induction k generalizing x with
  | zero => simp [axisIdx]
  | succ k ih =>
    have e : r * 2 ^ (k + 1) / 2 = r * 2 ^ k := by rw [pow_succ]; ring
    unfold axisIdx
    rw [e]
    split_ifs with h
    · obtain ⟨h1, h2⟩ := ih (x - r * 2 ^ k)
      generalize axisIdx k (r * 2 ^ k) (x - r * 2 ^ k) = c at *
      push_cast
      constructor
      · right
        rcases h1 with h1 | h1
        · subst h1; push_cast; linarith
        · linarith
      · rcases h2 with h2 | h2
        · left; rw [pow_succ]; omega
        · right; linarith
    · have hlt := axisIdx_lt k (r * 2 ^ k) x
      obtain ⟨h1, h2⟩ := ih x
      generalize axisIdx k (r * 2 ^ k) x = c at *
      refine ⟨h1, ?_⟩
      rcases h2 with h2 | h2
      · right
        have : ((c:ℝ) + 1) = 2 ^ k := by exact_mod_cast h2
        rw [this]; linarith
      · right; exact h2

theorem inSlab_unique {r x : ℝ} {n c c' : ℕ} (hr : 0 < r) (h : InSlab r n c x) (h' : InSlab r n c' x) :
    c = c' := by
  have key : ∀ c c' : ℕ, InSlab r n c x → InSlab r n c' x → ¬ c < c' := by
    rintro c c' ⟨-, -, h2⟩ ⟨h3, h4, -⟩ hlt
    have e1 : x ≤ (c + 1) * r := by
      rcases h2 with h2 | h2
      · omega
      · exact h2
    have e2 : (c':ℝ) * r < x := by
      rcases h4 with h4 | h4
      · omega
      · exact h4
    have : ((c:ℝ) + 1) ≤ c' := by exact_mod_cast hlt
    have := mul_le_mul_of_nonneg_right this hr.le
    linarith
  have h1 := key c c' h h'
  have h2 := key c' c h' h
  omega

theorem axisIdx_iff {k : ℕ} {r x : ℝ} {c : ℕ} (hr : 0 < r) :
    c = axisIdx k (r * 2 ^ k) x ↔ InSlab r (2 ^ k) c x :=
  ⟨fun h => h ▸ axisIdx_spec k r x, fun h => inSlab_unique hr h (axisIdx_spec k r x)⟩

theorem axisIdx_low (k : ℕ) {s x : ℝ} (hs : 0 < s) (hx : x ≤ 0) : axisIdx k s x = 0 := by
  induction k generalizing s with
  | zero => rfl
  | succ k ih =>
    unfold axisIdx
    rw [if_neg (by linarith), ih (by linarith)]

theorem axisIdx_high (k : ℕ) {s x : ℝ} (hs : 0 < s) (hx : s ≤ x) : axisIdx k s x = 2 ^ k - 1 := by
  induction k generalizing s x with
  | zero => rfl
  | succ k ih =>
    unfold axisIdx
    have := Nat.one_le_two_pow (n := k)
    rw [if_pos (by linarith), ih (by linarith) (by linarith), pow_succ]
    omega

/-! ## Well-formed trees and their occupied cells -/

namespace OctNode

/-- A tree whose leaves all have depth `k`: sizes halve, only leaves are occupied. -/
def WF : ℕ → ℝ → OctNode → Prop
  | _, _, .null => True
  | 0, s, .node s' _ ch => s' = s ∧ ∀ i, ch i = .null
  | k + 1, s, .node s' o ch => s' = s ∧ o = false ∧ ∀ i, WF k (s / 2) (ch i)

/-- Cell `c` of the grid at depth `k` is occupied. -/
def Occ : ℕ → OctNode → ℕ × ℕ × ℕ → Prop
  | _, .null, _ => False
  | 0, .node _ o _, c => o = true ∧ c = (0, 0, 0)
  | k + 1, .node _ _ ch, c => Occ k (ch (index (decide (2 ^ k ≤ c.1)) (decide (2 ^ k ≤ c.2.1))
      (decide (2 ^ k ≤ c.2.2))))
      (if 2 ^ k ≤ c.1 then c.1 - 2 ^ k else c.1, if 2 ^ k ≤ c.2.1 then c.2.1 - 2 ^ k else c.2.1,
        if 2 ^ k ≤ c.2.2 then c.2.2 - 2 ^ k else c.2.2)

/-- The cell with upper bits `b` and lower part `c`. -/
def up (k : ℕ) (b : Bool × Bool × Bool) (c : ℕ × ℕ × ℕ) : ℕ × ℕ × ℕ :=
  (b.1.toNat * 2 ^ k + c.1, b.2.1.toNat * 2 ^ k + c.2.1, b.2.2.toNat * 2 ^ k + c.2.2)

theorem Occ.lt {k : ℕ} {n : OctNode} {c : ℕ × ℕ × ℕ} (h : Occ k n c) :
    c.1 < 2 ^ k ∧ c.2.1 < 2 ^ k ∧ c.2.2 < 2 ^ k := by
  induction k generalizing n c with
  | zero =>
    cases n with
    | null => exact h.elim
    | node s o ch => obtain ⟨-, rfl⟩ := h; simp
  | succ k ih =>
    cases n with
    | null => exact h.elim
    | node s o ch =>
      obtain ⟨h1, h2, h3⟩ := ih h
      simp only at h1 h2 h3
      rw [pow_succ]
      split_ifs at h1 h2 h3 <;> omega

theorem not_occ_null {k : ℕ} {c : ℕ × ℕ × ℕ} : ¬ Occ k .null c := by
  cases k <;> exact id

theorem occ_up {k : ℕ} {s : ℝ} {o : Bool} {ch : Fin 8 → OctNode} {b : Bool × Bool × Bool}
    {c : ℕ × ℕ × ℕ} (hc : c.1 < 2 ^ k ∧ c.2.1 < 2 ^ k ∧ c.2.2 < 2 ^ k) :
    Occ (k + 1) (.node s o ch) (up k b c) ↔ Occ k (ch (index b.1 b.2.1 b.2.2)) c := by
  have key : ∀ (u : ℕ) (b : Bool) (c : ℕ), c < 2 ^ k → u = b.toNat * 2 ^ k + c →
      decide (2 ^ k ≤ u) = b ∧ (if 2 ^ k ≤ u then u - 2 ^ k else u) = c := by
    rintro u b c hc rfl
    cases b <;> simp <;> omega
  have h1 := key (up k b c).1 _ _ hc.1 rfl
  have h2 := key (up k b c).2.1 _ _ hc.2.1 rfl
  have h3 := key (up k b c).2.2 _ _ hc.2.2 rfl
  generalize up k b c = u at h1 h2 h3
  conv_lhs => unfold Occ
  rw [h1.1, h1.2, h2.1, h2.2, h3.1, h3.2]

theorem occ_succ {k : ℕ} {s : ℝ} {o : Bool} {ch : Fin 8 → OctNode} {c : ℕ × ℕ × ℕ} :
    Occ (k + 1) (.node s o ch) c ↔ ∃ b c', c = up k b c' ∧ Occ k (ch (index b.1 b.2.1 b.2.2)) c' := by
  constructor
  · intro h
    refine ⟨(decide (2 ^ k ≤ c.1), decide (2 ^ k ≤ c.2.1), decide (2 ^ k ≤ c.2.2)), _, ?_, h⟩
    have key : ∀ x : ℕ, x = (decide (2 ^ k ≤ x)).toNat * 2 ^ k + if 2 ^ k ≤ x then x - 2 ^ k else x := by
      intro x
      by_cases h : 2 ^ k ≤ x <;> simp [h]
    exact Prod.ext (key _) (Prod.ext (key _) (key _))
  · rintro ⟨b, c', rfl, h⟩
    exact (occ_up h.lt).2 h

theorem index_inj {b b' : Bool × Bool × Bool}
    (h : index b.1 b.2.1 b.2.2 = index b'.1 b'.2.1 b'.2.2) : b = b' := by
  revert b b'; decide

theorem up_inj {k : ℕ} {b b' : Bool × Bool × Bool} {c c' : ℕ × ℕ × ℕ}
    (hc : c.1 < 2 ^ k ∧ c.2.1 < 2 ^ k ∧ c.2.2 < 2 ^ k)
    (hc' : c'.1 < 2 ^ k ∧ c'.2.1 < 2 ^ k ∧ c'.2.2 < 2 ^ k) (h : up k b c = up k b' c') :
    b = b' ∧ c = c' := by
  have key : ∀ (b b' : Bool) (c c' : ℕ), c < 2 ^ k → c' < 2 ^ k →
      b.toNat * 2 ^ k + c = b'.toNat * 2 ^ k + c' → b = b' ∧ c = c' := by
    intro b b' c c' h h' e
    cases b <;> cases b' <;> simp at e ⊢ <;> omega
  simp only [up, Prod.mk.injEq] at h
  obtain ⟨h1, h2, h3⟩ := h
  obtain ⟨e1, f1⟩ := key _ _ _ _ hc.1 hc'.1 h1
  obtain ⟨e2, f2⟩ := key _ _ _ _ hc.2.1 hc'.2.1 h2
  obtain ⟨e3, f3⟩ := key _ _ _ _ hc.2.2 hc'.2.2 h3
  exact ⟨Prod.ext e1 (Prod.ext e2 e3), Prod.ext f1 (Prod.ext f2 f3)⟩

theorem WF.new (k : ℕ) (s : ℝ) : WF k s (OctNode.new s) := by
  cases k with
  | zero => exact ⟨rfl, fun _ => rfl⟩
  | succ k => exact ⟨rfl, rfl, fun _ => by cases k <;> exact trivial⟩

theorem not_occ_new (k : ℕ) (s : ℝ) (c : ℕ × ℕ × ℕ) : ¬ Occ k (OctNode.new s) c := by
  cases k with
  | zero => rintro ⟨h, -⟩; cases h
  | succ k => exact not_occ_null

/-! ## Adding a point -/

/-- The cell of a local point. -/
noncomputable def cellOf (k : ℕ) (s : ℝ) (p : Vec3) : ℕ × ℕ × ℕ :=
  (axisIdx k s p.x, axisIdx k s p.y, axisIdx k s p.z)

theorem cellOf_succ (k : ℕ) (s : ℝ) (p : Vec3) : cellOf (k + 1) s p =
    up k (decide (p.x > s / 2), decide (p.y > s / 2), decide (p.z > s / 2))
      (cellOf k (s / 2) (p - shift s (decide (p.x > s / 2)) (decide (p.y > s / 2))
        (decide (p.z > s / 2)))) := by
  have key : ∀ x : ℝ, axisIdx (k + 1) s x = (decide (x > s / 2)).toNat * 2 ^ k +
      axisIdx k (s / 2) (x - if decide (x > s / 2) = true then s / 2 else 0) := by
    intro x
    conv_lhs => unfold axisIdx
    by_cases h : x > s / 2 <;> simp [h]
  unfold cellOf up
  simp only [key, shift, Vec3.sub_x, Vec3.sub_y, Vec3.sub_z]

theorem cellOf_lt (k : ℕ) (s : ℝ) (p : Vec3) :
    (cellOf k s p).1 < 2 ^ k ∧ (cellOf k s p).2.1 < 2 ^ k ∧ (cellOf k s p).2.2 < 2 ^ k :=
  ⟨axisIdx_lt _ _ _, axisIdx_lt _ _ _, axisIdx_lt _ _ _⟩

theorem add_spec {res : ℝ} (hres : 1e-10 ≤ res) (k : ℕ) {n : OctNode} (hn : n ≠ .null)
    (hw : WF k (res * 2 ^ k) n) (p : Vec3) {fuel : ℕ} (hf : k < fuel) :
    ∃ n', add res fuel n p = .ok n' ∧ n' ≠ .null ∧ WF k (res * 2 ^ k) n' ∧
      ∀ c, Occ k n' c ↔ Occ k n c ∨ c = cellOf k (res * 2 ^ k) p := by
  induction k generalizing n p fuel with
  | zero =>
    cases n with
    | null => exact absurd rfl hn
    | node s o ch =>
      obtain ⟨fuel, rfl⟩ : ∃ f, fuel = f + 1 := ⟨fuel - 1, by omega⟩
      obtain ⟨hs, hch⟩ := hw
      have hlt : s - 1e-10 < res := by rw [hs]; norm_num
      refine ⟨.node s true ch, by simp [add, hlt], by simp, ⟨hs, hch⟩, ?_⟩
      intro c
      simp only [Occ, cellOf, axisIdx, true_and]
      tauto
  | succ k ih =>
    cases n with
    | null => exact absurd rfl hn
    | node s o ch =>
      obtain ⟨fuel, rfl⟩ : ∃ f, fuel = f + 1 := ⟨fuel - 1, by omega⟩
      obtain ⟨hs, ho, hch⟩ := hw
      have e : res * 2 ^ (k + 1) / 2 = res * 2 ^ k := by rw [pow_succ]; ring
      have h0 : (0:ℝ) < 1e-10 := by norm_num
      have hlt : ¬ s - 1e-10 < res := by
        have : (1:ℝ) ≤ 2 ^ k := one_le_pow₀ (by norm_num)
        have h2 : res * 1 ≤ res * 2 ^ k := mul_le_mul_of_nonneg_left this (by linarith)
        rw [hs, pow_succ]; linarith
      have hs2 : s / 2 = res * 2 ^ k := by rw [hs, e]
      rw [e] at hch
      set b : Bool × Bool × Bool := (decide (p.x > s / 2), decide (p.y > s / 2), decide (p.z > s / 2)) with hb
      set q := p - shift s b.1 b.2.1 b.2.2 with hq
      set child := ensure (s / 2) (ch (index b.1 b.2.1 b.2.2)) with hc
      have hchild : child ≠ .null ∧ WF k (res * 2 ^ k) child ∧
          ∀ c, Occ k child c ↔ Occ k (ch (index b.1 b.2.1 b.2.2)) c := by
        cases hci : ch (index b.1 b.2.1 b.2.2) with
        | null =>
          rw [hc, hci]
          refine ⟨by simp [OctNode.new, ensure], ?_, ?_⟩
          · rw [hs2]; exact WF.new _ _
          · intro c
            constructor
            · intro h; exact absurd h (not_occ_new _ _ _)
            · intro h; exact absurd h not_occ_null
        | node s' o' ch' =>
          rw [hc, hci]
          exact ⟨by simp [ensure], by have := hch (index b.1 b.2.1 b.2.2); rw [hci] at this; exact this,
            fun c => Iff.rfl⟩
      obtain ⟨c', hadd, hne, hw', hocc⟩ := ih hchild.1 hchild.2.1 q (show k < fuel by omega)
      refine ⟨.node s o (Function.update ch (index b.1 b.2.1 b.2.2) c'), ?_, by simp, ?_, ?_⟩
      · unfold add
        rw [if_neg hlt]
        simp only [hb, hq, hc] at hadd
        simp only [bind, Except.bind, pure, Except.pure, hadd, hb]
      · refine ⟨hs, ho, ?_⟩
        intro i
        rw [e]
        by_cases hi : i = index b.1 b.2.1 b.2.2
        · subst hi; rw [Function.update_self]; exact hw'
        · rw [Function.update_of_ne hi]; exact hch i
      · intro c
        have hcell : cellOf (k + 1) (res * 2 ^ (k + 1)) p = up k b (cellOf k (res * 2 ^ k) q) := by
          rw [cellOf_succ, ← hs, hs2, ← hs2]
        rw [hcell, occ_succ, occ_succ]
        constructor
        · rintro ⟨b', c'', rfl, h⟩
          by_cases hi : b' = b
          · subst hi
            rw [Function.update_self, hocc] at h
            rcases h with h | h
            · left; exact ⟨_, _, rfl, (hchild.2.2 _).1 h⟩
            · right; rw [h]
          · rw [Function.update_of_ne (fun h => hi (index_inj h))] at h
            left; exact ⟨_, _, rfl, h⟩
        · rintro (⟨b', c'', rfl, h⟩ | rfl)
          · refine ⟨b', c'', rfl, ?_⟩
            by_cases hi : b' = b
            · subst hi
              rw [Function.update_self, hocc]
              left; exact (hchild.2.2 _).2 h
            · rw [Function.update_of_ne (fun h => hi (index_inj h))]; exact h
          · refine ⟨b, _, rfl, ?_⟩
            rw [Function.update_self, hocc]
            right; rfl

theorem add_steady (res : ℝ) (n : OctNode) (p : Vec3) : Steady fun f => add res f n p := by
  intro f
  simp only
  induction f generalizing n p with
  | zero => intro h; exact absurd rfl h
  | succ f ih =>
    intro h
    cases n with
    | null => rfl
    | node s o ch =>
      unfold add at h ⊢
      split_ifs at h ⊢
      · rfl
      · simp only [bind, Except.bind] at h ⊢
        rw [ih]
        intro hh
        rw [hh] at h
        exact h rfl

/-! ## Reading back the cells -/

theorem wf_null_children {s s' : ℝ} {o : Bool} {ch : Fin 8 → OctNode} (h : WF 0 s (.node s' o ch)) (i : Fin 8) :
    ch i = .null := h.2 i

theorem mem_octants (b : Bool × Bool × Bool) : b ∈ octants := by
  revert b; decide

theorem octants_nodup : octants.Nodup := by decide

theorem cellLo_up (k : ℕ) (res : ℝ) (off : Vec3) (b : Bool × Bool × Bool) (c : ℕ × ℕ × ℕ) :
    cellLo res off (up k b c) = cellLo res (off + shift (res * 2 ^ (k + 1)) b.1 b.2.1 b.2.2) c := by
  obtain ⟨b1, b2, b3⟩ := b
  have e : res * 2 ^ (k + 1) / 2 = res * 2 ^ k := by rw [pow_succ]; ring
  have key : ∀ (b : Bool) (c : ℕ) (o : ℝ), o + ((b.toNat * 2 ^ k + c : ℕ) : ℝ) * res =
      o + (if b then res * 2 ^ k else 0) + c * res := by
    intro b c o
    cases b <;> simp <;> ring
  simp only [cellLo, up, shift, Vec3.add_x, Vec3.add_y, Vec3.add_z, e, key]

theorem cellHi_up (k : ℕ) (res : ℝ) (off : Vec3) (b : Bool × Bool × Bool) (c : ℕ × ℕ × ℕ) :
    cellHi res off (up k b c) = cellHi res (off + shift (res * 2 ^ (k + 1)) b.1 b.2.1 b.2.2) c := by
  obtain ⟨b1, b2, b3⟩ := b
  have e : res * 2 ^ (k + 1) / 2 = res * 2 ^ k := by rw [pow_succ]; ring
  have key : ∀ (b : Bool) (c : ℕ) (o : ℝ), o + (((b.toNat * 2 ^ k + c : ℕ) : ℝ) + 1) * res =
      o + (if b then res * 2 ^ k else 0) + (c + 1) * res := by
    intro b c o
    cases b <;> simp <;> ring
  simp only [cellHi, up, shift, Vec3.add_x, Vec3.add_y, Vec3.add_z, e, key]

theorem getCubes_spec {res : ℝ} (k : ℕ) {n : OctNode} (hw : WF k (res * 2 ^ k) n) (off : Vec3) :
    ∃ cells : List (ℕ × ℕ × ℕ), cells.Nodup ∧ (∀ c, c ∈ cells ↔ Occ k n c) ∧
      n.getCubes off = cells.map fun c => Box.new (cellLo res off c) (cellHi res off c) := by
  induction k generalizing n off with
  | zero =>
    cases n with
    | null => exact ⟨[], List.nodup_nil, fun c => by simp [Occ], rfl⟩
    | node s o ch =>
      obtain ⟨hs, hch⟩ := hw
      cases o with
      | true =>
        refine ⟨[(0, 0, 0)], by simp, fun c => by simp [Occ], ?_⟩
        unfold getCubes
        simp [cellLo, cellHi, hs]
        rfl
      | false =>
        refine ⟨[], by simp, fun c => by simp [Occ], ?_⟩
        unfold getCubes
        simp [hch, getCubes]
  | succ k ih =>
    cases n with
    | null => exact ⟨[], List.nodup_nil, fun c => by simp [Occ], rfl⟩
    | node s o ch =>
      obtain ⟨hs, ho, hch⟩ := hw
      have e : res * 2 ^ (k + 1) / 2 = res * 2 ^ k := by rw [pow_succ]; ring
      rw [e] at hch
      have := fun b : Bool × Bool × Bool => ih (hch (index b.1 b.2.1 b.2.2))
        (off + shift s b.1 b.2.1 b.2.2)
      choose cs h1 h2 h3 using this
      have hlt : ∀ b c, c ∈ cs b → c.1 < 2 ^ k ∧ c.2.1 < 2 ^ k ∧ c.2.2 < 2 ^ k :=
        fun b c h => ((h2 b c).1 h).lt
      refine ⟨octants.flatMap fun b => (cs b).map (up k b), ?_, ?_, ?_⟩
      · rw [List.nodup_flatMap]
        refine ⟨fun b _ => ?_, ?_⟩
        · exact (h1 b).map_on fun x hx y hy h => (up_inj (hlt b x hx) (hlt b y hy) h).2
        · refine octants_nodup.imp ?_
          intro b b' hne c hc hc'
          simp only [List.mem_map] at hc hc'
          obtain ⟨x, hx, rfl⟩ := hc
          obtain ⟨y, hy, h⟩ := hc'
          exact hne (up_inj (hlt b x hx) (hlt b' y hy) h.symm).1
      · intro c
        rw [occ_succ]
        simp only [List.mem_flatMap, List.mem_map]
        constructor
        · rintro ⟨b, -, c', hc', rfl⟩; exact ⟨b, c', rfl, (h2 b c').1 hc'⟩
        · rintro ⟨b, c', rfl, h⟩; exact ⟨b, mem_octants b, c', (h2 b c').2 h, rfl⟩
      · unfold getCubes
        rw [ho]
        simp only [Bool.false_eq_true, if_false, h3, List.map_flatMap, List.map_map]
        congr 1
        funext b
        refine List.map_congr_left fun c _ => ?_
        simp only [Function.comp, cellLo_up, cellHi_up, hs]

/-! ## Containment -/

/-- The interval reached on one axis by `contains`, which does not shift the point. -/
noncomputable def bugIdx : ℕ → ℝ → ℝ → ℕ
  | 0, _, _ => 0
  | k + 1, s, x => (if x > s / 2 then 2 ^ k else 0) + bugIdx k (s / 2) x

theorem bugIdx_lt (k : ℕ) (s x : ℝ) : bugIdx k s x < 2 ^ k := by
  induction k generalizing s with
  | zero => simp [bugIdx]
  | succ k ih =>
    unfold bugIdx
    have h1 := ih (s / 2)
    rw [pow_succ]
    split_ifs <;> omega

/-- The cell reached by `contains`. -/
noncomputable def bugCell (k : ℕ) (s : ℝ) (p : Vec3) : ℕ × ℕ × ℕ :=
  (bugIdx k s p.x, bugIdx k s p.y, bugIdx k s p.z)

theorem contains_spec {res : ℝ} (k : ℕ) {n : OctNode} (hw : WF k (res * 2 ^ k) n) (p : Vec3) :
    n.contains p = true ↔ Occ k n (bugCell k (res * 2 ^ k) p) := by
  induction k generalizing n with
  | zero =>
    cases n with
    | null => simp [contains, Occ]
    | node s o ch =>
      obtain ⟨hs, hch⟩ := hw
      cases o <;> simp [contains, Occ, hch, bugCell, bugIdx]
  | succ k ih =>
    cases n with
    | null => simp [contains, Occ]
    | node s o ch =>
      obtain ⟨hs, ho, hch⟩ := hw
      have e : res * 2 ^ (k + 1) / 2 = res * 2 ^ k := by rw [pow_succ]; ring
      rw [e] at hch
      have hs2 : s / 2 = res * 2 ^ k := by rw [hs, e]
      have key : bugCell (k + 1) (res * 2 ^ (k + 1)) p =
          up k (decide (p.x > s / 2), decide (p.y > s / 2), decide (p.z > s / 2))
            (bugCell k (res * 2 ^ k) p) := by
        have key : ∀ x : ℝ, bugIdx (k + 1) (res * 2 ^ (k + 1)) x =
            (decide (x > s / 2)).toNat * 2 ^ k + bugIdx k (res * 2 ^ k) x := by
          intro x
          conv_lhs => unfold bugIdx
          rw [e, ← hs2]
          by_cases h : x > s / 2 <;> simp [h]
        simp only [bugCell, up, key]
      rw [key, occ_up ⟨bugIdx_lt _ _ _, bugIdx_lt _ _ _, bugIdx_lt _ _ _⟩, ← ih (hch _)]
      conv_lhs => unfold contains
      rw [ho]
      simp only [Bool.false_eq_true, if_false]

theorem bugIdx_range (k : ℕ) {r x : ℝ} (hr : 0 < r) (j : ℕ) (hjk : j ≤ k) (h1 : j = 0 ∨ r * 2 ^ (j - 1) < x)
    (h2 : j = k ∨ x ≤ r * 2 ^ j) : bugIdx k (r * 2 ^ k) x = 2 ^ j - 1 := by
  induction k generalizing j with
  | zero =>
    obtain rfl : j = 0 := by omega
    simp [bugIdx]
  | succ k ih =>
    have e : r * 2 ^ (k + 1) / 2 = r * 2 ^ k := by rw [pow_succ]; ring
    have mono : ∀ a b : ℕ, a ≤ b → r * 2 ^ a ≤ r * (2 : ℝ) ^ b := fun a b hab =>
      mul_le_mul_of_nonneg_left (pow_le_pow_right₀ (by norm_num) hab) hr.le
    unfold bugIdx
    rw [e]
    rcases Nat.eq_or_lt_of_le hjk with rfl | hlt
    · have hx : r * 2 ^ k < x := by simpa using h1
      rw [if_pos hx, ih k le_rfl ?_ (.inl rfl)]
      · have := Nat.one_le_two_pow (n := k)
        rw [pow_succ]
        omega
      · exact .inr ((mono _ _ (by omega)).trans_lt hx)
    · have hx : x ≤ r * 2 ^ j := h2.resolve_left (by omega)
      rw [if_neg (not_lt.2 (hx.trans (mono _ _ (by omega)))), ih j (by omega) h1 (.inr hx), zero_add]

theorem bugIdx_slab (k : ℕ) {r x : ℝ} (hr : 0 < r) {c j : ℕ} (hc : InSlab r (2 ^ k) c x) (h1 : c < 2 ^ j)
    (h2 : j = 0 ∨ 2 ^ (j - 1) ≤ c) : bugIdx k (r * 2 ^ k) x = 2 ^ j - 1 := by
  obtain ⟨c1, c2, c3⟩ := hc
  have hjk : j ≤ k := by
    rcases h2 with h2 | h2
    · omega
    · have := (Nat.pow_lt_pow_iff_right (by norm_num : 1 < 2)).1 (h2.trans_lt c1)
      omega
  refine bugIdx_range k hr j hjk ?_ ?_
  · rcases h2 with h2 | h2
    · exact .inl h2
    · have hp := Nat.one_le_two_pow (n := j - 1)
      have hx := c2.resolve_left (by omega)
      have : ((2 : ℝ) ^ (j - 1)) ≤ c := by exact_mod_cast h2
      refine .inr (lt_of_le_of_lt ?_ hx)
      rw [mul_comm]
      exact mul_le_mul_of_nonneg_right this hr.le
  · rcases c3 with c3 | c3
    · refine .inl (le_antisymm hjk ((Nat.pow_le_pow_iff_right (by norm_num : 1 < 2)).1 (by omega : 2 ^ k ≤ 2 ^ j)))
    · have : (c : ℝ) + 1 ≤ 2 ^ j := by exact_mod_cast h1
      refine .inr (c3.trans ?_)
      rw [mul_comm r]
      exact mul_le_mul_of_nonneg_right this hr.le

theorem bugIdx_ones (k : ℕ) {r x : ℝ} (hr : 0 < r) (j : ℕ) (hj : InSlab r (2 ^ k) (2 ^ j - 1) x) :
    bugIdx k (r * 2 ^ k) x = 2 ^ j - 1 := by
  refine bugIdx_slab k hr hj (Nat.sub_lt (Nat.one_le_two_pow) one_pos) ?_
  rcases j with _ | j
  · exact .inl rfl
  · have := Nat.one_le_two_pow (n := j)
    rw [pow_succ, Nat.add_sub_cancel]
    omega

/-! ## Box query -/

theorem axisIdx_lower (k : ℕ) {s x : ℝ} (hs : 0 < s) (b : Bool) {c : ℕ} (hc : c < 2 ^ k) :
    axisIdx (k + 1) s x ≤ b.toNat * 2 ^ k + c ↔
      decide (x > s / 2) ≤ b ∧ axisIdx k (s / 2) (x - if b then s / 2 else 0) ≤ c := by
  conv_lhs => unfold axisIdx
  have h1 := axisIdx_lt k (s / 2) x
  by_cases h : x > s / 2
  · rw [if_pos h]
    cases b
    · simp only [Bool.toNat_false, zero_mul, zero_add]
      constructor
      · intro; omega
      · rintro ⟨h', -⟩; simp [h] at h'; exact absurd h' (by decide)
    · simp [h]
  · rw [if_neg h]
    cases b
    · simp [h]
    · simp only [Bool.toNat_true, one_mul, if_true, axisIdx_low k (by linarith : 0 < s / 2)
        (by linarith : x - s / 2 ≤ 0)]
      constructor
      · intro; exact ⟨by simp, by omega⟩
      · intro; omega

theorem axisIdx_upper (k : ℕ) {s x : ℝ} (hs : 0 < s) (b : Bool) {c : ℕ} (hc : c < 2 ^ k) :
    b.toNat * 2 ^ k + c ≤ axisIdx (k + 1) s x ↔
      b ≤ decide (x > s / 2) ∧ c ≤ axisIdx k (s / 2) (x - if b then s / 2 else 0) := by
  conv_lhs => unfold axisIdx
  have h1 := axisIdx_lt k (s / 2) x
  by_cases h : x > s / 2
  · rw [if_pos h]
    cases b
    · simp only [Bool.toNat_false, zero_mul, zero_add, Bool.false_eq_true, if_false, sub_zero,
        axisIdx_high k (by linarith : 0 < s / 2) (by linarith : s / 2 ≤ x)]
      constructor
      · intro; exact ⟨by simp, by omega⟩
      · intro; omega
    · simp [h]
  · rw [if_neg h]
    cases b
    · simp [h]
    · simp only [Bool.toNat_true, one_mul]
      constructor
      · intro; omega
      · rintro ⟨h', -⟩; simp [h] at h'; exact absurd h' (by decide)

/-- Cell between two cells on every axis. -/
def Between (a c b : ℕ × ℕ × ℕ) : Prop :=
  (a.1 ≤ c.1 ∧ c.1 ≤ b.1) ∧ (a.2.1 ≤ c.2.1 ∧ c.2.1 ≤ b.2.1) ∧ (a.2.2 ≤ c.2.2 ∧ c.2.2 ≤ b.2.2)

theorem intersectBox_spec {res : ℝ} (hres : 0 < res) (k : ℕ) {n : OctNode} (hw : WF k (res * 2 ^ k) n)
    (lo hi : Vec3) : n.intersectBox lo hi = true ↔
      ∃ c, Occ k n c ∧ Between (cellOf k (res * 2 ^ k) lo) c (cellOf k (res * 2 ^ k) hi) := by
  induction k generalizing n lo hi with
  | zero =>
    cases n with
    | null => simp [intersectBox, Occ]
    | node s o ch =>
      obtain ⟨hs, hch⟩ := hw
      cases o
      · simp [intersectBox, Occ, hch]
      · simp [intersectBox, Occ, Between, cellOf, axisIdx]
  | succ k ih =>
    cases n with
    | null => simp [intersectBox, Occ]
    | node s o ch =>
      obtain ⟨hs, ho, hch⟩ := hw
      have e : res * 2 ^ (k + 1) / 2 = res * 2 ^ k := by rw [pow_succ]; ring
      rw [e] at hch
      have hs2 : s / 2 = res * 2 ^ k := by rw [hs, e]
      have hs0 : 0 < s := by rw [hs]; positivity
      unfold intersectBox
      rw [ho]
      simp only [Bool.false_eq_true, if_false, List.any_eq_true, Bool.and_eq_true, decide_eq_true_eq]
      constructor
      · rintro ⟨b, -, ⟨⟨⟨bx, by'⟩, bz⟩, h⟩⟩
        obtain ⟨c, hc, hb1, hb2, hb3⟩ := (ih (hch _) _ _).1 h
        refine ⟨up k b c, occ_succ.2 ⟨b, c, rfl, hc⟩, ?_⟩
        rw [← hs2] at hb1 hb2 hb3
        obtain ⟨l1, l2, l3⟩ := hc.lt
        rw [← hs]
        exact ⟨⟨(axisIdx_lower k hs0 b.1 l1).2 ⟨bx.1, hb1.1⟩, (axisIdx_upper k hs0 b.1 l1).2 ⟨bx.2, hb1.2⟩⟩,
          ⟨(axisIdx_lower k hs0 b.2.1 l2).2 ⟨by'.1, hb2.1⟩, (axisIdx_upper k hs0 b.2.1 l2).2 ⟨by'.2, hb2.2⟩⟩,
          ⟨(axisIdx_lower k hs0 b.2.2 l3).2 ⟨bz.1, hb3.1⟩, (axisIdx_upper k hs0 b.2.2 l3).2 ⟨bz.2, hb3.2⟩⟩⟩
      · rintro ⟨c, hc, hb1, hb2, hb3⟩
        obtain ⟨b, c', rfl, hc'⟩ := occ_succ.1 hc
        obtain ⟨l1, l2, l3⟩ := hc'.lt
        rw [← hs] at hb1 hb2 hb3
        have a1 := (axisIdx_lower k hs0 b.1 l1).1 hb1.1
        have a2 := (axisIdx_upper k hs0 b.1 l1).1 hb1.2
        have a3 := (axisIdx_lower k hs0 b.2.1 l2).1 hb2.1
        have a4 := (axisIdx_upper k hs0 b.2.1 l2).1 hb2.2
        have a5 := (axisIdx_lower k hs0 b.2.2 l3).1 hb3.1
        have a6 := (axisIdx_upper k hs0 b.2.2 l3).1 hb3.2
        refine ⟨b, mem_octants b, ⟨⟨⟨⟨a1.1, a2.1⟩, ⟨a3.1, a4.1⟩⟩, ⟨a5.1, a6.1⟩⟩, ?_⟩⟩
        refine (ih (hch _) _ _).2 ⟨c', hc', ?_⟩
        rw [← hs2]
        exact ⟨⟨a1.2, a2.2⟩, ⟨a3.2, a4.2⟩, ⟨a5.2, a6.2⟩⟩

end OctNode

end Geo
