import Verif.Lemmas.OwnershipWorld

/-!
# Programs with height maps on the heap
-/

namespace Geo

open Spec

/-- The nodes that `build` creates. -/
theorem build_owns (t : HNode) (h : Heap HData 4) :
    ∃ F : Finset ℕ, Owns (HWorld.build t h).1.cells (HWorld.build t h).2 (heightTree t) F ∧
      (∀ b ∈ F, h.next ≤ b ∧ b < (HWorld.build t h).1.next) ∧
      (∀ b, b ∉ F → (HWorld.build t h).1.cells b = h.cells b) ∧ h.next ≤ (HWorld.build t h).1.next := by
  induction t generalizing h with
  | null => exact ⟨∅, ⟨rfl, rfl⟩, by simp, fun _ _ => rfl, le_rfl⟩
  | node box occupied children ih =>
    simp only [HWorld.build]
    set r := h.alloc ⟨box, occupied⟩ with hr
    have rn : r.1.next = h.next + 1 := rfl
    have ra : r.2 = h.next := rfl
    have rc : ∀ b, b ≠ h.next → r.1.cells b = h.cells b := fun b hb => by
      simp [hr, Heap.alloc, Heap.write, Function.update_of_ne hb]
    obtain ⟨F0, w0, n0, o0, l0⟩ := ih 0 r.1
    set c0 := HWorld.build (children 0) r.1
    obtain ⟨F1, w1, n1, o1, l1⟩ := ih 1 c0.1
    set c1 := HWorld.build (children 1) c0.1
    obtain ⟨F2, w2, n2, o2, l2⟩ := ih 2 c1.1
    set c2 := HWorld.build (children 2) c1.1
    obtain ⟨F3, w3, n3, o3, l3⟩ := ih 3 c2.1
    set c3 := HWorld.build (children 3) c2.1
    have keep : ∀ b, h.next < b → (b ∉ F3 → c3.1.cells b = c2.1.cells b) ∧
        ((c3.1.write r.2 ⟨⟨box, occupied⟩, ![c0.2, c1.2, c2.2, c3.2]⟩).cells b = c3.1.cells b) := by
      intro b hb
      refine ⟨o3 b, ?_⟩
      simp only [Heap.write]
      rw [Function.update_of_ne (by omega)]
    have x0 : ∀ b ∈ F0, b ∉ F1 ∧ b ∉ F2 ∧ b ∉ F3 := fun b hb => by
      have := n0 b hb
      exact ⟨fun h => by have := n1 b h; omega, fun h => by have := n2 b h; omega,
        fun h => by have := n3 b h; omega⟩
    have x1 : ∀ b ∈ F1, b ∉ F2 ∧ b ∉ F3 := fun b hb => by
      have := n1 b hb
      exact ⟨fun h => by have := n2 b h; omega, fun h => by have := n3 b h; omega⟩
    have x2 : ∀ b ∈ F2, b ∉ F3 := fun b hb h => by
      have := n2 b hb
      have := n3 b h
      omega
    refine ⟨insert h.next (Finset.univ.biUnion ![F0, F1, F2, F3]), ⟨h.next, ![c0.2, c1.2, c2.2, c3.2], ![F0, F1, F2, F3], rfl, by
      simp only [Heap.write, ra, Function.update_self], ?_, ?_, ?_, rfl⟩, ?_, ?_, ?_⟩
    · intro i
      fin_cases i
      · exact w0.congr fun b hb => by
          have := n0 b hb
          rw [(keep b (by omega)).2, o3 b (x0 b hb).2.2, o2 b (x0 b hb).2.1, o1 b (x0 b hb).1]
      · exact w1.congr fun b hb => by
          have := n1 b hb
          rw [(keep b (by omega)).2, o3 b (x1 b hb).2, o2 b (x1 b hb).1]
      · exact w2.congr fun b hb => by
          have := n2 b hb
          rw [(keep b (by omega)).2, o3 b (x2 b hb)]
      · exact w3.congr fun b hb => by
          have := n3 b hb
          rw [(keep b (by omega)).2]
    · intro i
      fin_cases i
      · exact fun hb => by have := n0 _ hb; omega
      · exact fun hb => by have := n1 _ hb; omega
      · exact fun hb => by have := n2 _ hb; omega
      · exact fun hb => by have := n3 _ hb; omega
    · have d01 : Disjoint F0 F1 := Finset.disjoint_left.2 fun b hb => (x0 b hb).1
      have d02 : Disjoint F0 F2 := Finset.disjoint_left.2 fun b hb => (x0 b hb).2.1
      have d03 : Disjoint F0 F3 := Finset.disjoint_left.2 fun b hb => (x0 b hb).2.2
      have d12 : Disjoint F1 F2 := Finset.disjoint_left.2 fun b hb => (x1 b hb).1
      have d13 : Disjoint F1 F3 := Finset.disjoint_left.2 fun b hb => (x1 b hb).2
      have d23 : Disjoint F2 F3 := Finset.disjoint_left.2 fun b hb => x2 b hb
      intro i j hij
      fin_cases i <;> fin_cases j <;>
        first
        | exact absurd rfl hij
        | assumption
        | (apply Disjoint.symm; assumption)
    · intro b hb
      have hn : (c3.1.write r.2 ⟨⟨box, occupied⟩, ![c0.2, c1.2, c2.2, c3.2]⟩).next = c3.1.next := rfl
      rw [hn]
      rcases Finset.mem_insert.1 hb with rfl | hb
      · omega
      · obtain ⟨i, -, hb⟩ := Finset.mem_biUnion.1 hb
        fin_cases i
        · have := n0 b hb; omega
        · have := n1 b hb; omega
        · have := n2 b hb; omega
        · have := n3 b hb; omega
    · intro b hb
      have h1 : b ≠ h.next := fun e => hb (by simp [e])
      have h2 : ∀ i, b ∉ (![F0, F1, F2, F3] : Fin 4 → Finset ℕ) i := fun i hi =>
        hb (Finset.mem_insert_of_mem (Finset.mem_biUnion.2 ⟨i, Finset.mem_univ i, hi⟩))
      simp only [Heap.write, ra]
      rw [Function.update_of_ne h1, o3 b (h2 3), o2 b (h2 2), o1 b (h2 1), o0 b (h2 0), rc b h1]
    · show h.next ≤ c3.1.next
      omega

/-- The height maps hold the values in disjoint sets of nodes. (Device of the proofs.) -/
structure InvH (s : ℕ → Option HNode) (w : HWorld) (Fs : ℕ → Finset ℕ) : Prop where
  gone : ∀ v, s v = none → w.objs v = none ∧ Fs v = ∅
  held : ∀ v t, s v = some t → ∃ o, w.objs v = some o ∧ Owns w.heap.cells o (heightTree t) (Fs v)
  apart : ∀ u v, u ≠ v → Disjoint (Fs u) (Fs v)
  bound : ∀ b, w.heap.cells b ≠ none → b < w.heap.next

theorem InvH.empty : InvH (fun _ => none) HWorld.empty (fun _ => ∅) :=
  ⟨fun _ _ => ⟨rfl, rfl⟩, by simp, by simp, by simp [HWorld.empty, Heap.empty]⟩

theorem InvH.lt {s : ℕ → Option HNode} {w : HWorld} {Fs : ℕ → Finset ℕ} (h : InvH s w Fs) (v b : ℕ)
    (hb : b ∈ Fs v) : b < w.heap.next := by
  cases hs : s v with
  | none => rw [(h.gone v hs).2] at hb; simp at hb
  | some t =>
    obtain ⟨o, -, how⟩ := h.held v t hs
    exact h.bound b (how.live b hb)

theorem InvH.replace {s : ℕ → Option HNode} {w : HWorld} {Fs : ℕ → Finset ℕ} (h : InvH s w Fs) (v : ℕ)
    {g : Heap HData 4} {ob : Option (Option ℕ)} {t : Option HNode} {G : Finset ℕ}
    (hG : ∀ b ∈ G, b ∈ Fs v ∨ (w.heap.next ≤ b ∧ b < g.next))
    (hold : ∀ u, u ≠ v → ∀ b ∈ Fs u, g.cells b = w.heap.cells b)
    (hb : ∀ b, g.cells b ≠ none → b < g.next)
    (hgone : t = none → ob = none ∧ G = ∅)
    (hheld : ∀ t', t = some t' → ∃ o, ob = some o ∧ Owns g.cells o (heightTree t') G) :
    InvH (Function.update s v t) ⟨g, Function.update w.objs v ob⟩ (Function.update Fs v G) := by
  have hdis : ∀ u, u ≠ v → Disjoint G (Fs u) := fun u hu => Finset.disjoint_left.2 fun b hb hbu => by
    rcases hG b hb with h1 | h1
    · exact Finset.disjoint_left.1 (h.apart v u (Ne.symm hu)) h1 hbu
    · have := h.lt u b hbu
      omega
  refine ⟨?_, ?_, ?_, hb⟩
  · intro u hu
    by_cases huv : u = v
    · subst huv
      simp only [Function.update_self] at hu ⊢
      exact hgone hu
    · simp only [Function.update_of_ne huv] at hu ⊢
      exact h.gone u hu
  · intro u t' hu
    by_cases huv : u = v
    · subst huv
      simp only [Function.update_self] at hu ⊢
      exact hheld t' hu
    · simp only [Function.update_of_ne huv] at hu ⊢
      obtain ⟨o, e, how⟩ := h.held u t' hu
      exact ⟨o, e, how.congr (hold u huv)⟩
  · intro u u' huu
    by_cases huv : u = v
    · subst huv
      simp only [Function.update_self, Function.update_of_ne (Ne.symm huu)]
      exact hdis u' (Ne.symm huu)
    · by_cases huv' : u' = v
      · subst huv'
        simp only [Function.update_self, Function.update_of_ne huu]
        exact (hdis u huu).symm
      · simp only [Function.update_of_ne huv, Function.update_of_ne huv']
        exact h.apart u u' huu

theorem InvH.step {s s' : ℕ → Option HNode} {w : HWorld} {Fs : ℕ → Finset ℕ} (h : InvH s w Fs) {op : HOp}
    (hop : ∀ v u, op ≠ .assign v u) (hs : heightStep s op = .ok s') :
    ∃ w' Fs', w.step op = .ok w' ∧ InvH s' w' Fs' := by
  cases op with
  | create v =>
    cases hv : s v with
    | some t => simp [heightStep, hv] at hs
    | none =>
      obtain ⟨hov, hFv⟩ := h.gone v hv
      simp only [heightStep, hv, Option.isSome_none, Bool.false_eq_true, if_false, Except.ok.injEq] at hs
      subst hs
      refine ⟨_, Function.update Fs v ∅, by
        simp only [HWorld.step, hov, Option.isSome_none, Bool.false_eq_true, if_false, HWorld.create]; rfl,
        h.replace v (by simp) (fun _ _ _ _ => rfl) h.bound (by simp) ?_⟩
      rintro t' ⟨⟩
      exact ⟨none, rfl, rfl, rfl⟩
  | fromGrid v grid resolution =>
    cases hv : s v with
    | some t => simp [heightStep, hv] at hs
    | none =>
      obtain ⟨hov, hFv⟩ := h.gone v hv
      simp only [heightStep, hv, Option.isSome_none, Bool.false_eq_true, if_false] at hs
      cases hm : HeightMap.fromGrid grid resolution with
      | error e => rw [hm] at hs; simp [bind, Except.bind] at hs
      | ok m =>
        rw [hm] at hs
        simp only [bind, Except.bind, pure, Except.pure, Except.ok.injEq] at hs
        subst hs
        obtain ⟨G, how, hnew, hold, hnx⟩ := build_owns m.root w.heap
        refine ⟨_, Function.update Fs v G, by
          simp only [HWorld.step, hov, Option.isSome_none, Bool.false_eq_true, if_false, HWorld.fromGrid, hm, bind,
            Except.bind, pure, Except.pure]; rfl, h.replace v (fun b hb => .inr (hnew b hb)) ?_ ?_ (by simp) ?_⟩
        · intro u hu b hb
          refine hold b fun hG => ?_
          have := h.lt u b hb
          have := hnew b hG
          omega
        · intro b hb
          by_cases hG : b ∈ G
          · exact (hnew b hG).2
          · rw [hold b hG] at hb
            have := h.bound b hb
            omega
        · rintro t' ⟨⟩
          exact ⟨_, rfl, how⟩
  | copy v u =>
    cases hv : s v with
    | some t => simp [heightStep, hv] at hs
    | none =>
      obtain ⟨hov, hFv⟩ := h.gone v hv
      simp only [heightStep, hv, Option.isSome_none, Bool.false_eq_true, if_false] at hs
      cases hu : known s u with
      | error e => rw [hu] at hs; simp [bind, Except.bind] at hs
      | ok t =>
        rw [hu] at hs
        simp only [bind, Except.bind, pure, Except.pure, Except.ok.injEq] at hs
        subst hs
        obtain ⟨o, ho, how⟩ := h.held u t (known_ok hu)
        cases o with
        | none =>
          refine ⟨_, Function.update Fs v ∅, by
            simp only [HWorld.step, hov, Option.isSome_none, Bool.false_eq_true, if_false, HWorld.copy, HWorld.obj, ho,
              bind, Except.bind, pure, Except.pure]; rfl,
            h.replace v (by simp) (fun _ _ _ _ => rfl) h.bound (by simp) ?_⟩
          rintro t' ⟨⟩
          cases t with
          | null => exact ⟨none, rfl, rfl, rfl⟩
          | node => obtain ⟨_, _, _, h, _⟩ := how; simp at h
        | some a =>
          have hd : (heightTree t).depth ≤ w.heap.next + 1 := by
            have h1 := how.depth_le
            have h2 : (Fs u).card ≤ (Finset.range w.heap.next).card :=
              Finset.card_le_card fun b hb => Finset.mem_range.2 (h.lt u b hb)
            rw [Finset.card_range] at h2
            omega
          obtain ⟨g, a', G, hcopy, how', hnew, hold, hnx⟩ := copy_owns id (w.heap.next + 1) w.heap a _ _ how hd
            h.bound
          rw [map_id] at how'
          refine ⟨_, Function.update Fs v G, by
            simp only [HWorld.step, hov, Option.isSome_none, Bool.false_eq_true, if_false, HWorld.copy, HWorld.obj, ho,
              bind, Except.bind, hcopy, pure, Except.pure]; rfl,
            h.replace v (fun b hb => .inr (hnew b hb)) ?_ ?_ (by simp) ?_⟩
          · intro x hx b hb
            refine hold b fun hG => ?_
            have := h.lt x b hb
            have := hnew b hG
            omega
          · intro b hb
            by_cases hG : b ∈ G
            · exact (hnew b hG).2
            · rw [hold b hG] at hb
              have := h.bound b hb
              omega
          · rintro t' ⟨⟩
            exact ⟨_, rfl, how'⟩
  | destroy v =>
    simp only [heightStep] at hs
    cases hv : known s v with
    | error e => rw [hv] at hs; simp [bind, Except.bind] at hs
    | ok t =>
      rw [hv] at hs
      simp only [bind, Except.bind, pure, Except.pure, Except.ok.injEq] at hs
      subst hs
      obtain ⟨o, ho, how⟩ := h.held v t (known_ok hv)
      cases o with
      | none =>
        exact ⟨_, Function.update Fs v ∅, by
          simp only [HWorld.step, HWorld.destroy, HWorld.obj, ho, bind, Except.bind, pure, Except.pure]; rfl,
          h.replace v (by simp) (fun _ _ _ _ => rfl) h.bound (by simp) (by simp)⟩
      | some a =>
        cases t with
        | null => simp [heightTree, Owns] at how
        | node box occupied children =>
          obtain ⟨x, pt, Gs, hx, hc, hch, ha, hdis, hFv⟩ := how
          cases hx
          refine ⟨_, Function.update Fs v ∅, by
            simp only [HWorld.step, HWorld.destroy, HWorld.obj, ho, bind, Except.bind, Heap.free, hc, pure,
              Except.pure]; rfl, h.replace v (by simp) ?_ ?_ (by simp) (by simp)⟩
          · intro u hu b hb
            have : b ≠ a := fun e => by
              refine Finset.disjoint_left.1 (h.apart u v hu) hb ?_
              rw [hFv, e]; simp
            simp only [Function.update_of_ne this]
          · intro b hb
            by_cases hba : b = a
            · subst hba; simp at hb
            · simp only [Function.update_of_ne hba] at hb
              exact h.bound b hb
  | assign v u => exact absurd rfl (hop v u)

theorem InvH.run {s s' : ℕ → Option HNode} {w : HWorld} {Fs : ℕ → Finset ℕ} (h : InvH s w Fs) {ops : List HOp}
    (hop : ∀ v u, HOp.assign v u ∉ ops) (hs : heightRun s ops = .ok s') :
    ∃ w' Fs', w.run ops = .ok w' ∧ InvH s' w' Fs' := by
  induction ops generalizing s w Fs with
  | nil => cases hs; exact ⟨w, Fs, rfl, h⟩
  | cons op ops ih =>
    simp only [heightRun, bind, Except.bind] at hs
    cases h1 : heightStep s op with
    | error e => rw [h1] at hs; simp at hs
    | ok s1 =>
      rw [h1] at hs
      obtain ⟨w1, F1, e, hi⟩ := h.step (fun v u e => hop v u (by simp [e])) h1
      obtain ⟨w2, F2, e', hi'⟩ := ih hi (fun v u hm => hop v u (by simp [hm])) hs
      exact ⟨w2, F2, by simp only [HWorld.run, e, bind, Except.bind]; exact e', hi'⟩

theorem InvH.holds {s : ℕ → Option HNode} {w : HWorld} {Fs : ℕ → Finset ℕ} (h : InvH s w Fs) :
    HoldsHeight s w := by
  refine ⟨fun v hv => (h.gone v hv).1, ?_, ?_⟩
  · intro v t hv
    obtain ⟨o, ho, how⟩ := h.held v t hv
    exact ⟨o, ho, how.spells⟩
  · intro u v a a' b ho ho' hr hr'
    by_contra huv
    have key : ∀ x ax, w.objs x = some (some ax) → Reach w.heap.cells ax b → b ∈ Fs x := by
      intro x ax hx hrx
      cases hs : s x with
      | none => rw [(h.gone x hs).1] at hx; simp at hx
      | some t =>
        obtain ⟨o2, ho2, how⟩ := h.held x t hs
        rw [hx] at ho2
        cases ho2
        exact (how.reach b).1 hrx
    exact Finset.disjoint_left.1 (h.apart u v huv) (key u a ho hr) (key v a' ho' hr')

/-- A pointer spells one tree only. -/
theorem Spells.unique {D : Type} {k : ℕ} {cells : ℕ → Option (Cell D k)} {t t' : PTree D k} {p : Option ℕ}
    (h : Spells cells p t) (h' : Spells cells p t') : t = t' := by
  induction t generalizing p t' with
  | null =>
    cases t' with
    | null => rfl
    | node => obtain ⟨a, pt, e, -⟩ := h'; rw [h] at e; simp at e
  | node d ch ih =>
    obtain ⟨a, pt, e, hc, hch⟩ := h
    cases t' with
    | null => rw [e] at h'; simp [Spells] at h'
    | node d' ch' =>
      obtain ⟨a', pt', e', hc', hch'⟩ := h'
      rw [e] at e'
      cases e'
      rw [hc] at hc'
      cases hc'
      congr 1
      exact funext fun i => ih i (hch i) (hch' i)

/-- A change of a node whose tree is deeper is not seen. -/
theorem Spells.frame {D : Type} {k : ℕ} {cells cells' : ℕ → Option (Cell D k)} {a : ℕ} {T : PTree D k}
    (hT : Spells cells (some a) T) (hne : ∀ b, cells b ≠ none → b ≠ a → cells' b = cells b) {t : PTree D k}
    {p : Option ℕ} (hd : t.depth < T.depth) (h : Spells cells p t) : Spells cells' p t := by
  induction t generalizing p with
  | null => exact h
  | node d ch ih =>
    have h0 := h
    obtain ⟨x, pt, e, hc, hch⟩ := h
    refine ⟨x, pt, e, ?_, fun i => ih i ?_ (hch i)⟩
    · rw [hne x (by simp [hc]) ?_, hc]
      rintro rfl
      rw [e] at h0
      rw [Spells.unique h0 hT] at hd
      exact lt_irrefl _ hd
    · exact lt_of_le_of_lt (by simp only [PTree.depth]; exact (Finset.le_sup (f := fun i => (ch i).depth) (Finset.mem_univ i)).trans (by omega)) hd

end Geo
