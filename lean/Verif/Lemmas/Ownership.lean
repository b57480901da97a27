import Verif.Spec.Ownership
import Verif.Lemmas.Octree
import Mathlib.Data.Finset.Card
import Mathlib.Data.Finset.Union
import Mathlib.Data.Fintype.Basic
import Mathlib.Data.List.FinRange

/-!
# Helper lemmas for trees on the heap
-/

namespace Geo

open Spec

variable {D : Type} {k : ℕ}

/-- The pointer spells the tree in the nodes `F`, each used once. (Device of the proofs.) -/
def Owns (cells : ℕ → Option (Cell D k)) : Option ℕ → PTree D k → Finset ℕ → Prop
  | p, .null, F => p = none ∧ F = ∅
  | p, .node d ch, F => ∃ a pt, ∃ Fs : Fin k → Finset ℕ, p = some a ∧ cells a = some ⟨d, pt⟩ ∧
      (∀ i, Owns cells (pt i) (ch i) (Fs i)) ∧ (∀ i, a ∉ Fs i) ∧ (∀ i j, i ≠ j → Disjoint (Fs i) (Fs j)) ∧
      F = insert a (Finset.univ.biUnion Fs)

/-- Depth of a tree. (Device of the proofs.) -/
def Spec.PTree.depth : PTree D k → ℕ
  | .null => 0
  | .node _ ch => (Finset.univ.sup fun i => (ch i).depth) + 1

/-- The tree with changed data. (Device of the proofs.) -/
def Spec.PTree.map (f : D → D) : PTree D k → PTree D k
  | .null => .null
  | .node d ch => .node (f d) fun i => (ch i).map f

theorem Owns.spells {cells : ℕ → Option (Cell D k)} {p : Option ℕ} {t : PTree D k} {F : Finset ℕ}
    (h : Owns cells p t F) : Spells cells p t := by
  induction t generalizing p F with
  | null => exact h.1
  | node d ch ih =>
    obtain ⟨a, pt, Fs, hp, hc, hch, -⟩ := h
    exact ⟨a, pt, hp, hc, fun i => ih i (hch i)⟩

/-- Only the owned nodes matter. -/
theorem Owns.congr {cells cells' : ℕ → Option (Cell D k)} {p : Option ℕ} {t : PTree D k} {F : Finset ℕ}
    (h : Owns cells p t F) (he : ∀ b ∈ F, cells' b = cells b) : Owns cells' p t F := by
  induction t generalizing p F with
  | null => exact h
  | node d ch ih =>
    obtain ⟨a, pt, Fs, hp, hc, hch, ha, hd, rfl⟩ := h
    refine ⟨a, pt, Fs, hp, ?_, fun i => ih i (hch i) fun b hb => he b ?_, ha, hd, rfl⟩
    · rw [he a (by simp)]; exact hc
    · exact Finset.mem_insert_of_mem (Finset.mem_biUnion.2 ⟨i, Finset.mem_univ i, hb⟩)

theorem Owns.live {cells : ℕ → Option (Cell D k)} {p : Option ℕ} {t : PTree D k} {F : Finset ℕ}
    (h : Owns cells p t F) : ∀ b ∈ F, cells b ≠ none := by
  induction t generalizing p F with
  | null => rw [h.2]; simp
  | node d ch ih =>
    obtain ⟨a, pt, Fs, hp, hc, hch, ha, hd, rfl⟩ := h
    intro b hb
    rcases Finset.mem_insert.1 hb with rfl | hb
    · rw [hc]; simp
    · obtain ⟨i, -, hb⟩ := Finset.mem_biUnion.1 hb
      exact ih i (hch i) b hb

/-- The owned nodes are those one comes to. -/
theorem Owns.reach {cells : ℕ → Option (Cell D k)} {a : ℕ} {t : PTree D k} {F : Finset ℕ}
    (h : Owns cells (some a) t F) (b : ℕ) : Reach cells a b ↔ b ∈ F := by
  constructor
  · have key : ∀ (t : PTree D k) (p : Option ℕ) (F : Finset ℕ), Owns cells p t F →
        (∀ x, p = some x → x ∈ F) ∧
        ∀ b ∈ F, ∀ c, cells b = some c → ∀ i b', c.children i = some b' → b' ∈ F := by
      intro t
      induction t with
      | null =>
        rintro p F ⟨rfl, rfl⟩
        simp
      | node d ch ih =>
        rintro p F ⟨a, pt, Fs, rfl, hc, hch, ha, hd, rfl⟩
        refine ⟨by simp, ?_⟩
        intro b hb c hbc i b' hb'
        rcases Finset.mem_insert.1 hb with rfl | hb
        · rw [hc] at hbc
          cases hbc
          exact Finset.mem_insert_of_mem (Finset.mem_biUnion.2
            ⟨i, Finset.mem_univ i, (ih i _ _ (hch i)).1 b' hb'⟩)
        · obtain ⟨j, -, hb⟩ := Finset.mem_biUnion.1 hb
          exact Finset.mem_insert_of_mem (Finset.mem_biUnion.2
            ⟨j, Finset.mem_univ j, (ih j _ _ (hch j)).2 b hb c hbc i b' hb'⟩)
    intro hr
    induction hr with
    | start => exact (key t _ F h).1 a rfl
    | next _ hc hi ih => exact (key t _ F h).2 _ ih _ hc _ _ hi
  · have key : ∀ (t : PTree D k) (p : Option ℕ) (F : Finset ℕ), Owns cells p t F →
        (∀ x, p = some x → Reach cells a x) → ∀ b ∈ F, Reach cells a b := by
      intro t
      induction t with
      | null =>
        rintro p F ⟨rfl, rfl⟩
        simp
      | node d ch ih =>
        rintro p F ⟨x, pt, Fs, rfl, hc, hch, ha, hd, rfl⟩ hx b hb
        rcases Finset.mem_insert.1 hb with rfl | hb
        · exact hx _ rfl
        · obtain ⟨j, -, hb⟩ := Finset.mem_biUnion.1 hb
          exact ih j _ _ (hch j) (fun y hy => .next (hx x rfl) hc hy) b hb
    exact key t _ F h (fun x hx => by cases hx; exact .start) b

theorem Owns.depth_le {cells : ℕ → Option (Cell D k)} {p : Option ℕ} {t : PTree D k} {F : Finset ℕ}
    (h : Owns cells p t F) : t.depth ≤ F.card := by
  induction t generalizing p F with
  | null => simp [PTree.depth]
  | node d ch ih =>
    obtain ⟨a, pt, Fs, hp, hc, hch, ha, hd, rfl⟩ := h
    rw [Finset.card_insert_of_notMem (by simp [ha])]
    simp only [PTree.depth, Nat.add_le_add_iff_right, Finset.sup_le_iff]
    intro i _
    exact (ih i (hch i)).trans (Finset.card_le_card (Finset.subset_biUnion_of_mem Fs (Finset.mem_univ i)))

/-! ## Copies -/

/-- What a copy does: the nodes of the copy are new, the others as before. -/
theorem copy_owns (f : D → D) (n : ℕ) (h : Heap D k) (a : ℕ) (t : PTree D k) (F : Finset ℕ)
    (ht : Owns h.cells (some a) t F) (hd : t.depth ≤ n) (hF : ∀ b, h.cells b ≠ none → b < h.next) :
    ∃ h' a' F', h.copy f n a = .ok (h', a') ∧ Owns h'.cells (some a') (t.map f) F' ∧
      (∀ b ∈ F', h.next ≤ b ∧ b < h'.next) ∧ (∀ b, b ∉ F' → h'.cells b = h.cells b) ∧ h.next ≤ h'.next := by
  induction n generalizing h a t F with
  | zero =>
    cases t with
    | null => simp [Owns] at ht
    | node => simp [PTree.depth] at hd
  | succ n ih =>
    cases t with
    | null => simp [Owns] at ht
    | node d ch =>
      obtain ⟨x, pt, Fs, hx, hc, hch, ha, hdis, rfl⟩ := ht
      cases hx
      simp only [PTree.depth, Nat.add_le_add_iff_right, Finset.sup_le_iff, Finset.mem_univ, forall_const] at hd
      -- the loop over the children
      have loop : ∀ (l : List (Fin k)), l.Nodup → ∀ (g : Heap D k) (q : Fin k → Option ℕ)
          (Gs : Fin k → Finset ℕ), h.next < g.next →
          (∀ i, i ∈ l → Gs i = ∅ ∧ q i = none) →
          (∀ i, i ∉ l → Owns g.cells (q i) ((ch i).map f) (Gs i)) →
          (∀ i j, i ≠ j → Disjoint (Gs i) (Gs j)) →
          (∀ i, ∀ b ∈ Gs i, h.next < b ∧ b < g.next) →
          (∀ b, (∀ i, b ∉ Gs i) → g.cells b = h.cells b) →
          ∃ g' q', ∃ Gs' : Fin k → Finset ℕ, l.foldlM (fun (s : Heap D k × (Fin k → Option ℕ)) i =>
              match pt i with
              | none => .ok s
              | some b => do
                let r ← Heap.copy f n s.1 b
                return (r.1, Function.update s.2 i (some r.2))) (g, q) = (.ok (g', q') : Exec _) ∧
            h.next < g'.next ∧ (∀ i, Owns g'.cells (q' i) ((ch i).map f) (Gs' i)) ∧
            (∀ i j, i ≠ j → Disjoint (Gs' i) (Gs' j)) ∧
            (∀ i, ∀ b ∈ Gs' i, h.next < b ∧ b < g'.next) ∧
            (∀ b, (∀ i, b ∉ Gs' i) → g'.cells b = h.cells b) := by
        intro l
        induction l with
        | nil =>
          intro _ g q Gs h1 _ h3 h4 h5 h6
          exact ⟨g, q, Gs, rfl, h1, fun i => h3 i (by simp), h4, h5, h6⟩
        | cons i l ihl =>
          intro hnd g q Gs h1 h2 h3 h4 h5 h6
          obtain ⟨hil, hnd⟩ := List.nodup_cons.1 hnd
          obtain ⟨hGi, hqi⟩ := h2 i (by simp)
          rw [List.foldlM_cons]
          cases hpi : pt i with
          | none =>
            have hnull : ch i = .null := by
              have := hch i
              rw [hpi] at this
              cases hchi : ch i with
              | null => rfl
              | node => rw [hchi] at this; obtain ⟨_, _, _, h, _⟩ := this; simp at h
            refine ihl hnd g q Gs h1 (fun j hj => h2 j (by simp [hj])) ?_ h4 h5 h6
            intro j hj
            by_cases hji : j = i
            · subst hji
              rw [hnull, hGi, hqi]
              exact ⟨rfl, rfl⟩
            · exact h3 j (by simp [hji, hj])
          | some b =>
            have how := hch i
            rw [hpi] at how
            have how' : Owns g.cells (some b) (ch i) (Fs i) := how.congr fun y hy =>
              h6 y fun j hj => by
                have := (h5 j y hj).1
                have := hF y (how.live y hy)
                omega
            have hgF : ∀ y, g.cells y ≠ none → y < g.next := by
              intro y hy
              by_cases hyG : ∃ j, y ∈ Gs j
              · obtain ⟨j, hj⟩ := hyG
                exact (h5 j y hj).2
              · have := hF y (by rw [← h6 y (fun j hj => hyG ⟨j, hj⟩)]; exact hy)
                omega
            obtain ⟨g', b', G', hcopy, how2, hnew, hold, hnx⟩ := ih g b (ch i) (Fs i) how' (hd i) hgF
            have hdisj : ∀ j, Disjoint G' (Gs j) := fun j => Finset.disjoint_left.2 fun y hy hyj => by
              have := (hnew y hy).1
              have := (h5 j y hyj).2
              omega
            obtain ⟨g2, q2, G2, e, r⟩ := ihl hnd g' (Function.update q i (some b'))
              (Function.update Gs i G') (by omega)
              (by
                intro j hj
                have : j ≠ i := fun h => hil (h ▸ hj)
                simp only [Function.update_of_ne this]
                exact h2 j (by simp [hj]))
              (by
                intro j hj
                by_cases hji : j = i
                · subst hji
                  simpa using how2
                · simp only [Function.update_of_ne hji]
                  refine (h3 j (by simp [hji, hj])).congr fun y hy => hold y fun hy' => ?_
                  exact Finset.disjoint_left.1 (hdisj j) hy' hy)
              (by
                intro j j' hjj
                by_cases hji : j = i
                · subst hji
                  simp only [Function.update_self, Function.update_of_ne (Ne.symm hjj)]
                  exact hdisj j'
                · by_cases hji' : j' = i
                  · subst hji'
                    simp only [Function.update_self, Function.update_of_ne hjj]
                    exact (hdisj j).symm
                  · simp only [Function.update_of_ne hji, Function.update_of_ne hji']
                    exact h4 j j' hjj)
              (by
                intro j y hy
                by_cases hji : j = i
                · subst hji
                  simp only [Function.update_self] at hy
                  have := hnew y hy
                  omega
                · simp only [Function.update_of_ne hji] at hy
                  have := h5 j y hy
                  omega)
              (by
                intro y hy
                have hyG : y ∉ G' := by simpa using hy i
                rw [hold y hyG]
                apply h6
                intro j
                by_cases hji : j = i
                · subst hji
                  rw [hGi]; simp
                · simpa [Function.update_of_ne hji] using hy j)
            refine ⟨g2, q2, G2, ?_, r⟩
            show ((Heap.copy f n g b >>= fun r => pure (r.1, Function.update q i (some r.2))) >>=
              fun s => List.foldlM _ s l) = _
            rw [hcopy]
            exact e
      obtain ⟨g', q', Gs', e, h1, h2, h3, h4, h5⟩ := loop (List.finRange k) (List.nodup_finRange k)
        { h with next := h.next + 1 } (fun _ => none) (fun _ => ∅) (by simp) (by simp)
        (fun i hi => absurd (List.mem_finRange i) hi) (by simp) (by simp) (by simp)
      refine ⟨g'.write h.next ⟨f d, q'⟩, h.next, insert h.next (Finset.univ.biUnion Gs'), ?_, ?_, ?_, ?_, ?_⟩
      · unfold Heap.copy
        simp only [Heap.read, hc, bind, Except.bind] at e ⊢
        erw [e]
        rfl
      · refine ⟨h.next, q', Gs', rfl, by simp [Heap.write], fun i => (h2 i).congr fun b hb => ?_, ?_, h3, rfl⟩
        · have := h4 i b hb
          simp only [Heap.write]
          rw [Function.update_of_ne (by omega)]
        · intro i hi
          have := h4 i _ hi
          omega
      · intro b hb
        rcases Finset.mem_insert.1 hb with rfl | hb
        · exact ⟨le_refl _, h1⟩
        · obtain ⟨i, -, hb⟩ := Finset.mem_biUnion.1 hb
          have := h4 i b hb
          exact ⟨by omega, this.2⟩
      · intro b hb
        simp only [Finset.mem_insert, Finset.mem_biUnion, Finset.mem_univ, true_and, not_or, not_exists] at hb
        simp only [Heap.write, Function.update_of_ne hb.1]
        exact h5 b hb.2
      · exact h1.le

/-! ## Deletion -/

/-- Deleting a tree releases its nodes and no others. -/
theorem delete_owns (n : ℕ) (h : Heap D k) (a : ℕ) (t : PTree D k) (F : Finset ℕ)
    (ht : Owns h.cells (some a) t F) (hd : t.depth ≤ n) :
    ∃ h', h.delete n a = .ok h' ∧ h'.next = h.next ∧ (∀ b ∈ F, h'.cells b = none) ∧
      ∀ b, b ∉ F → h'.cells b = h.cells b := by
  induction n generalizing h a t F with
  | zero =>
    cases t with
    | null => simp [Owns] at ht
    | node => simp [PTree.depth] at hd
  | succ n ih =>
    cases t with
    | null => simp [Owns] at ht
    | node d ch =>
      obtain ⟨x, pt, Fs, hx, hc, hch, ha, hdis, rfl⟩ := ht
      cases hx
      simp only [PTree.depth, Nat.add_le_add_iff_right, Finset.sup_le_iff, Finset.mem_univ, forall_const] at hd
      have loop : ∀ (l : List (Fin k)), l.Nodup → ∀ g : Heap D k, g.next = h.next →
          (∀ i, i ∉ l → ∀ b ∈ Fs i, g.cells b = none) →
          (∀ b, (∀ i, i ∉ l → b ∉ Fs i) → g.cells b = h.cells b) →
          ∃ g', l.foldlM (fun (s : Heap D k) i =>
              match pt i with
              | none => .ok s
              | some b => Heap.delete n s b) g = (.ok g' : Exec _) ∧ g'.next = h.next ∧
            (∀ i, ∀ b ∈ Fs i, g'.cells b = none) ∧ (∀ b, (∀ i, b ∉ Fs i) → g'.cells b = h.cells b) := by
        intro l
        induction l with
        | nil =>
          intro _ g h1 h2 h3
          exact ⟨g, rfl, h1, fun i => h2 i (by simp), fun b hb => h3 b fun i _ => hb i⟩
        | cons i l ihl =>
          intro hnd g h1 h2 h3
          obtain ⟨hil, hnd⟩ := List.nodup_cons.1 hnd
          rw [List.foldlM_cons]
          have how := hch i
          cases hpi : pt i with
          | none =>
            have hFi : Fs i = ∅ := by
              rw [hpi] at how
              cases hchi : ch i with
              | null => rw [hchi] at how; exact how.2
              | node => rw [hchi] at how; obtain ⟨_, _, _, h, _⟩ := how; simp at h
            refine ihl hnd g h1 ?_ ?_
            · intro j hj
              by_cases hji : j = i
              · subst hji; rw [hFi]; simp
              · exact h2 j (by simp [hji, hj])
            · intro b hb
              exact h3 b fun j hj => hb j (fun h => hj (by simp [h]))
          | some b =>
            rw [hpi] at how
            have how' : Owns g.cells (some b) (ch i) (Fs i) := how.congr fun y hy => h3 y fun j hj hyj => by
              have hji : j ≠ i := fun h => hj (by simp [h])
              exact Finset.disjoint_left.1 (hdis j i hji) hyj hy
            obtain ⟨g', e, hn, hgone, hold⟩ := ih g b (ch i) (Fs i) how' (hd i)
            obtain ⟨g2, e2, r⟩ := ihl hnd g' (hn.trans h1)
              (by
                intro j hj y hy
                by_cases hji : j = i
                · subst hji; exact hgone y hy
                · rw [hold y (Finset.disjoint_left.1 (hdis j i hji) hy)]
                  exact h2 j (by simp [hji, hj]) y hy)
              (by
                intro y hy
                rw [hold y (hy i hil)]
                exact h3 y fun j hj => hy j fun h => hj (by simp [h]))
            refine ⟨g2, ?_, r⟩
            show (Heap.delete n g b >>= fun s => List.foldlM _ s l) = _
            rw [e]
            exact e2
      obtain ⟨g', e, h1, h2, h3⟩ := loop (List.finRange k) (List.nodup_finRange k) h rfl
        (fun i hi => absurd (List.mem_finRange i) hi) (fun _ _ => rfl)
      have hga : g'.cells a = some ⟨d, pt⟩ := by rw [h3 a ha]; exact hc
      refine ⟨{ g' with cells := Function.update g'.cells a none }, ?_, h1, ?_, ?_⟩
      · unfold Heap.delete
        simp only [Heap.read, hc, bind, Except.bind] at e ⊢
        erw [e]
        simp only [Heap.free, hga]
      · intro b hb
        rcases Finset.mem_insert.1 hb with rfl | hb
        · simp
        · obtain ⟨i, -, hb⟩ := Finset.mem_biUnion.1 hb
          have hba : b ≠ a := fun h => ha i (h ▸ hb)
          simp only [Function.update_of_ne hba]
          exact h2 i b hb
      · intro b hb
        simp only [Finset.mem_insert, Finset.mem_biUnion, Finset.mem_univ, true_and, not_or, not_exists] at hb
        simp only [Function.update_of_ne hb.1]
        exact h3 b hb.2

/-! ## Changing one child -/

theorem Owns.change {cells cells' : ℕ → Option (Cell D k)} {a : ℕ} {d : D} {pt : Fin k → Option ℕ}
    {ch : Fin k → PTree D k} {Fs : Fin k → Finset ℕ} (hch : ∀ i, Owns cells (pt i) (ch i) (Fs i))
    (ha : ∀ i, a ∉ Fs i) (hdis : ∀ i j, i ≠ j → Disjoint (Fs i) (Fs j)) (i : Fin k) {b : ℕ} {t : PTree D k}
    {G : Finset ℕ} (hb : Owns cells' (some b) t G) (haG : a ∉ G) (hG : ∀ j, j ≠ i → Disjoint G (Fs j))
    (hc : cells' a = some ⟨d, Function.update pt i (some b)⟩)
    (hold : ∀ j, j ≠ i → ∀ y ∈ Fs j, cells' y = cells y) :
    Owns cells' (some a) (.node d (Function.update ch i t))
      (insert a (Finset.univ.biUnion (Function.update Fs i G))) := by
  refine ⟨a, _, Function.update Fs i G, rfl, hc, ?_, ?_, ?_, rfl⟩
  · intro j
    by_cases hj : j = i
    · subst hj; simpa using hb
    · simp only [Function.update_of_ne hj]
      exact (hch j).congr (hold j hj)
  · intro j
    by_cases hj : j = i
    · subst hj; simpa using haG
    · simpa only [Function.update_of_ne hj] using ha j
  · intro j j' hjj
    by_cases hj : j = i
    · subst hj
      simp only [Function.update_self, Function.update_of_ne (Ne.symm hjj)]
      exact hG j' (Ne.symm hjj)
    · by_cases hj' : j' = i
      · subst hj'
        simp only [Function.update_self, Function.update_of_ne hjj]
        exact (hG j hjj).symm
      · simp only [Function.update_of_ne hj, Function.update_of_ne hj']
        exact hdis j j' hjj

theorem octTree_update (v : ℕ) (children : Fin 8 → OctNode) (i : Fin 8) (c : OctNode) :
    (fun j => octTree v (Function.update children i c j)) =
      Function.update (fun j => octTree v (children j)) i (octTree v c) := by
  funext j
  by_cases hj : j = i
  · subst hj; simp
  · simp [Function.update_of_ne hj]

theorem octTree_map (u v : ℕ) (t : OctNode) :
    (octTree u t).map (fun d => { d with tree := v }) = octTree v t := by
  induction t with
  | null => rfl
  | node size occupied children ih =>
    simp only [octTree, PTree.map, PTree.node.injEq, true_and]
    funext i
    exact ih i

theorem map_id (t : PTree D k) : t.map id = t := by
  induction t with
  | null => rfl
  | node d ch ih =>
    simp only [PTree.map, id, PTree.node.injEq, true_and]
    funext i
    exact ih i

/-- `add` in place does what `add` does on values. -/
theorem addNode_owns {objs : ℕ → Option OctObj} {v : ℕ} {o : OctObj} (hobj : objs v = some o) (n : ℕ)
    (h : Heap OctData 8) (a : ℕ) (t : OctNode) (F : Finset ℕ) (p : Vec3)
    (ht : Owns h.cells (some a) (octTree v t) F) (hF : ∀ b, h.cells b ≠ none → b < h.next) :
    (OctNode.add o.resolution n t p = .error .hang → World.addNode objs n h a p = .error .hang) ∧
    ∀ t', OctNode.add o.resolution n t p = .ok t' → ∃ h' F', World.addNode objs n h a p = .ok h' ∧
      Owns h'.cells (some a) (octTree v t') F' ∧ F ⊆ F' ∧
      (∀ b ∈ F', b ∈ F ∨ (h.next ≤ b ∧ b < h'.next)) ∧ (∀ b, b ∉ F' → h'.cells b = h.cells b) ∧
      h.next ≤ h'.next := by
  induction n generalizing h a t F p with
  | zero => exact ⟨fun _ => rfl, fun t' h => by simp [OctNode.add] at h⟩
  | succ n ih =>
    cases t with
    | null => simp [octTree, Owns] at ht
    | node size occupied children =>
      obtain ⟨x, pt, Fs, hx, hc, hch, ha, hdis, rfl⟩ := ht
      cases hx
      replace hch : ∀ i, Owns h.cells (pt i) (octTree v (children i)) (Fs i) := hch
      have hread : h.read a = .ok ⟨⟨size, size / 2, occupied, v⟩, pt⟩ := by simp [Heap.read, hc]
      have hob : World.obj ⟨h, objs⟩ v = .ok o := by simp [World.obj, hobj]
      unfold OctNode.add World.addNode
      simp only [hread, bind, Except.bind, hob]
      by_cases hs : size - 1e-10 < o.resolution
      · simp only [if_pos hs]
        refine ⟨fun h => by simp at h, ?_⟩
        rintro t' ht'
        cases ht'
        refine ⟨_, insert a (Finset.univ.biUnion Fs), rfl, ⟨a, pt, Fs, rfl, by simp [Heap.write], ?_, ha, hdis, rfl⟩,
          subset_rfl, fun b hb => .inl hb, ?_, le_rfl⟩
        · intro i
          refine (hch i).congr fun b hb => ?_
          have : b ≠ a := fun h => ha i (h ▸ hb)
          simp [Heap.write, Function.update_of_ne this]
        · intro b hb
          have : b ≠ a := fun h => hb (by simp [h])
          simp [Heap.write, Function.update_of_ne this]
      · simp only [if_neg hs]
        set bx := decide (p.x > size / 2)
        set bY := decide (p.y > size / 2)
        set bz := decide (p.z > size / 2)
        set i := OctNode.index bx bY bz
        have hq : (⟨if bx = true then p.x - size / 2 else p.x, if bY = true then p.y - size / 2 else p.y,
            if bz = true then p.z - size / 2 else p.z⟩ : Vec3) = p - OctNode.shift size bx bY bz := by
          ext <;> simp only [OctNode.shift, Vec3.sub_x, Vec3.sub_y, Vec3.sub_z] <;> split_ifs <;> simp
        rw [hq]
        have hai : a < h.next := hF a (by rw [hc]; simp)
        have hFs : ∀ j, ∀ y ∈ Fs j, y < h.next := fun j y hy => hF y ((hch j).live y hy)
        cases hpi : pt i with
        | some b =>
          have how := hch i
          rw [hpi] at how
          have hen : OctNode.ensure (size / 2) (children i) = children i := by
            cases hci : children i with
            | null => rw [hci] at how; simp [octTree, Owns] at how
            | node => rfl
          rw [hen]
          obtain ⟨i1, i2⟩ := ih h b (children i) (Fs i) (p - OctNode.shift size bx bY bz) how hF
          constructor
          · intro hh
            apply i1
            cases hadd : OctNode.add o.resolution n (children i) (p - OctNode.shift size bx bY bz) with
            | error e => rw [hadd] at hh; simpa using hh
            | ok c => rw [hadd] at hh; simp [pure, Except.pure] at hh
          · intro t' hh
            cases hadd : OctNode.add o.resolution n (children i) (p - OctNode.shift size bx bY bz) with
            | error e => rw [hadd] at hh; simp at hh
            | ok c =>
              rw [hadd] at hh
              simp only [pure, Except.pure, Except.ok.injEq] at hh
              subst hh
              obtain ⟨h', G, e, how', hsub, hnew, hold, hnx⟩ := i2 c hadd
              have haG : a ∉ G := fun hG => by
                rcases hnew a hG with h1 | h1
                · exact ha i h1
                · omega
              have hGd : ∀ j, j ≠ i → Disjoint G (Fs j) := fun j hj => Finset.disjoint_left.2 fun y hy hyj => by
                rcases hnew y hy with h1 | h1
                · exact Finset.disjoint_left.1 (hdis i j (Ne.symm hj)) h1 hyj
                · have := hFs j y hyj
                  omega
              refine ⟨h', insert a (Finset.univ.biUnion (Function.update Fs i G)), e, ?_, ?_, ?_, ?_, hnx⟩
              · have := Owns.change (ch := fun j => octTree v (children j)) (d := ⟨size, size / 2, occupied, v⟩) hch ha hdis i how' haG hGd
                  (by rw [hold a haG, hc, ← hpi, Function.update_eq_self])
                  (fun j hj y hy => hold y fun hG => Finset.disjoint_left.1 (hGd j hj) hG hy)
                simp only [octTree, octTree_update]
                exact this
              · intro y hy
                rcases Finset.mem_insert.1 hy with rfl | hy
                · simp
                · obtain ⟨j, -, hy⟩ := Finset.mem_biUnion.1 hy
                  refine Finset.mem_insert_of_mem (Finset.mem_biUnion.2 ⟨j, Finset.mem_univ j, ?_⟩)
                  by_cases hj : j = i
                  · subst hj; simpa using hsub hy
                  · simpa [Function.update_of_ne hj] using hy
              · intro y hy
                rcases Finset.mem_insert.1 hy with rfl | hy
                · left; simp
                · obtain ⟨j, -, hy⟩ := Finset.mem_biUnion.1 hy
                  by_cases hj : j = i
                  · subst hj
                    simp only [Function.update_self] at hy
                    rcases hnew y hy with h1 | h1
                    · exact .inl (Finset.mem_insert_of_mem (Finset.mem_biUnion.2 ⟨_, Finset.mem_univ _, h1⟩))
                    · exact .inr h1
                  · simp only [Function.update_of_ne hj] at hy
                    exact .inl (Finset.mem_insert_of_mem (Finset.mem_biUnion.2 ⟨_, Finset.mem_univ _, hy⟩))
              · intro y hy
                refine hold y fun hG => hy (Finset.mem_insert_of_mem (Finset.mem_biUnion.2
                  ⟨i, Finset.mem_univ i, ?_⟩))
                simpa using hG
        | none =>
          have how := hch i
          rw [hpi] at how
          have hnull : children i = .null := by
            cases hci : children i with
            | null => rfl
            | node => rw [hci] at how; obtain ⟨_, _, _, h, _⟩ := how; simp at h
          have hFi : Fs i = ∅ := by rw [hnull] at how; exact how.2
          rw [hnull]
          simp only [OctNode.ensure, Heap.alloc]
          set h1 : Heap OctData 8 := Heap.write (Heap.write { h with next := h.next + 1 } h.next
            ⟨World.nodeData (size / 2) v, fun _ => none⟩) a
            ⟨⟨size, size / 2, occupied, v⟩, Function.update pt i (some h.next)⟩ with hh1
          have c1 : ∀ y, y ≠ a → y ≠ h.next → h1.cells y = h.cells y := by
            intro y h1 h2
            simp [hh1, Heap.write, Function.update_of_ne h1, Function.update_of_ne h2]
          have c2 : h1.cells h.next = some ⟨World.nodeData (size / 2) v, fun _ => none⟩ := by
            have : h.next ≠ a := by omega
            simp [hh1, Heap.write, Function.update_of_ne this]
          have c3 : h1.cells a = some ⟨⟨size, size / 2, occupied, v⟩, Function.update pt i (some h.next)⟩ := by
            simp [hh1, Heap.write]
          have hn1 : h1.next = h.next + 1 := rfl
          have how1 : Owns h1.cells (some h.next) (octTree v (OctNode.new (size / 2))) {h.next} :=
            ⟨h.next, fun _ => none, fun _ => ∅, rfl, c2, fun _ => ⟨rfl, rfl⟩, fun _ => Finset.notMem_empty _,
              fun _ _ _ => Finset.disjoint_empty_left _, by ext; simp⟩
          have hF1 : ∀ b, h1.cells b ≠ none → b < h1.next := by
            intro b hb
            by_cases hba : b = a
            · omega
            · by_cases hbn : b = h.next
              · omega
              · rw [c1 b hba hbn] at hb
                have := hF b hb
                omega
          obtain ⟨i1, i2⟩ := ih h1 h.next (OctNode.new (size / 2)) {h.next} (p - OctNode.shift size bx bY bz) how1 hF1
          constructor
          · intro hh
            apply i1
            cases hadd : OctNode.add o.resolution n (OctNode.new (size / 2)) (p - OctNode.shift size bx bY bz) with
            | error e => rw [hadd] at hh; simpa using hh
            | ok c => rw [hadd] at hh; simp [pure, Except.pure] at hh
          · intro t' hh
            cases hadd : OctNode.add o.resolution n (OctNode.new (size / 2)) (p - OctNode.shift size bx bY bz) with
            | error e => rw [hadd] at hh; simp at hh
            | ok c =>
              rw [hadd] at hh
              simp only [pure, Except.pure, Except.ok.injEq] at hh
              subst hh
              obtain ⟨h', G, e, how', hsub, hnew, hold, hnx⟩ := i2 c hadd
              have hGnew : ∀ y ∈ G, h.next ≤ y ∧ y < h'.next := fun y hy => by
                rcases hnew y hy with h1 | h1
                · have := Finset.mem_singleton.1 h1
                  omega
                · omega
              have haG : a ∉ G := fun hG => by
                have := hGnew a hG
                omega
              have hGd : ∀ j, j ≠ i → Disjoint G (Fs j) := fun j hj => Finset.disjoint_left.2 fun y hy hyj => by
                have := hGnew y hy
                have := hFs j y hyj
                omega
              refine ⟨h', insert a (Finset.univ.biUnion (Function.update Fs i G)), e, ?_, ?_, ?_, ?_, by omega⟩
              · have := Owns.change (cells := h.cells) (ch := fun j => octTree v (children j)) (d := ⟨size, size / 2, occupied, v⟩) hch ha hdis i how' haG
                  hGd (by rw [hold a haG, c3])
                  (fun j hj y hy => by
                    rw [hold y fun hG => Finset.disjoint_left.1 (hGd j hj) hG hy, c1 y]
                    · exact fun h => ha j (h ▸ hy)
                    · have := hFs j y hy
                      omega)
                simp only [octTree, octTree_update]
                exact this
              · intro y hy
                rcases Finset.mem_insert.1 hy with rfl | hy
                · simp
                · obtain ⟨j, -, hy⟩ := Finset.mem_biUnion.1 hy
                  refine Finset.mem_insert_of_mem (Finset.mem_biUnion.2 ⟨j, Finset.mem_univ j, ?_⟩)
                  by_cases hj : j = i
                  · subst hj; rw [hFi] at hy; simp at hy
                  · simpa [Function.update_of_ne hj] using hy
              · intro y hy
                rcases Finset.mem_insert.1 hy with rfl | hy
                · left; simp
                · obtain ⟨j, -, hy⟩ := Finset.mem_biUnion.1 hy
                  by_cases hj : j = i
                  · subst hj
                    simp only [Function.update_self] at hy
                    exact .inr (hGnew y hy)
                  · simp only [Function.update_of_ne hj] at hy
                    exact .inl (Finset.mem_insert_of_mem (Finset.mem_biUnion.2 ⟨_, Finset.mem_univ _, hy⟩))
              · intro y hy
                have hyG : y ∉ G := fun hG => hy (Finset.mem_insert_of_mem (Finset.mem_biUnion.2
                  ⟨i, Finset.mem_univ i, by simpa using hG⟩))
                rw [hold y hyG, c1 y]
                · exact fun h => hy (by simp [h])
                · rintro rfl
                  exact hyG (hsub (by simp))

/-- `getCubes` in place does what `getCubes` does on values. -/
theorem nodeCubes_owns {v : ℕ} (n : ℕ) (h : Heap OctData 8) (a : ℕ) (t : OctNode) (F : Finset ℕ) (offset : Vec3)
    (ht : Owns h.cells (some a) (octTree v t) F) (hd : (octTree v t).depth ≤ n) :
    World.nodeCubes n h a offset = .ok (t.getCubes offset) := by
  induction n generalizing a t F offset with
  | zero =>
    cases t with
    | null => simp [octTree, Owns] at ht
    | node => simp [octTree, PTree.depth] at hd
  | succ n ih =>
    cases t with
    | null => simp [octTree, Owns] at ht
    | node size occupied children =>
      obtain ⟨x, pt, Fs, hx, hc, hch, ha, hdis, rfl⟩ := ht
      cases hx
      replace hch : ∀ i, Owns h.cells (pt i) (octTree v (children i)) (Fs i) := hch
      simp only [octTree, PTree.depth, Nat.add_le_add_iff_right, Finset.sup_le_iff, Finset.mem_univ,
        forall_const] at hd
      unfold World.nodeCubes OctNode.getCubes
      simp only [Heap.read, hc, bind, Except.bind]
      cases occupied with
      | true => rfl
      | false =>
        simp only [Bool.false_eq_true, if_false]
        have loop : ∀ (l : List (Bool × Bool × Bool)) (acc : List Box),
            l.foldlM (fun (l : List Box) o =>
              match pt (OctNode.index o.1 o.2.1 o.2.2) with
              | none => .ok l
              | some b => do
                let m ← World.nodeCubes n h b (offset + ⟨if o.1 then size / 2 else 0, if o.2.1 then size / 2 else 0,
                  if o.2.2 then size / 2 else 0⟩)
                return l ++ m) acc = (.ok (acc ++ l.flatMap fun o =>
              (children (OctNode.index o.1 o.2.1 o.2.2)).getCubes (offset + OctNode.shift size o.1 o.2.1 o.2.2)) : Exec _) := by
          intro l
          induction l with
          | nil => intro acc; simp [pure, Except.pure]
          | cons o l ihl =>
            intro acc
            rw [List.foldlM_cons, List.flatMap_cons]
            have how := hch (OctNode.index o.1 o.2.1 o.2.2)
            cases hp : pt (OctNode.index o.1 o.2.1 o.2.2) with
            | none =>
              have hnull : children (OctNode.index o.1 o.2.1 o.2.2) = .null := by
                rw [hp] at how
                cases hci : children (OctNode.index o.1 o.2.1 o.2.2) with
                | null => rfl
                | node => rw [hci] at how; obtain ⟨_, _, _, h, _⟩ := how; simp at h
              rw [hnull]
              show List.foldlM _ acc l = _
              rw [ihl]
              simp [OctNode.getCubes]
            | some b =>
              rw [hp] at how
              have := ih b _ _ (offset + OctNode.shift size o.1 o.2.1 o.2.2) how (hd _)
              show ((World.nodeCubes n h b (offset + OctNode.shift size o.1 o.2.1 o.2.2) >>=
                fun m => pure (acc ++ m)) >>= fun s => List.foldlM _ s l) = _
              rw [this]
              show List.foldlM _ (acc ++ _) l = _
              rw [ihl, List.append_assoc]
        exact loop OctNode.octants []

open Classical in
/-- `raytrace` in place does what `raytrace` does on values. -/
theorem rayNode_owns {objs : ℕ → Option OctObj} {v : ℕ} {o : OctObj} (hobj : objs v = some o) (n : ℕ)
    (h : Heap OctData 8) (a : ℕ) (t : OctNode) (F : Finset ℕ) (q u : Vec3) (t0 t1 : ℝ)
    (ht : Owns h.cells (some a) (octTree v t) F) :
    (OctNode.raytrace o.resolution n t q u t0 t1 = .error .hang → World.rayNode objs n h a q u t0 t1 = .error .hang) ∧
    ∀ t', OctNode.raytrace o.resolution n t q u t0 t1 = .ok t' → ∃ h', World.rayNode objs n h a q u t0 t1 = .ok h' ∧
      Owns h'.cells (some a) (octTree v t') F ∧ (∀ b, b ∉ F → h'.cells b = h.cells b) ∧ h'.next = h.next := by
  induction n generalizing h a t F q t0 with
  | zero => exact ⟨fun _ => rfl, fun t' h => by simp [OctNode.raytrace] at h⟩
  | succ n ih =>
    cases t with
    | null => simp [octTree, Owns] at ht
    | node size occupied children =>
      have ht0 := ht
      obtain ⟨x, pt, Fs, hx, hc, hch, ha, hdis, rfl⟩ := ht
      cases hx
      replace hch : ∀ i, Owns h.cells (pt i) (octTree v (children i)) (Fs i) := hch
      have hread : h.read a = .ok ⟨⟨size, size / 2, occupied, v⟩, pt⟩ := by simp [Heap.read, hc]
      unfold OctNode.raytrace World.rayNode
      simp only [hread, bind, Except.bind]
      by_cases h1 : t1 < t0
      · simp only [if_pos h1]
        exact ⟨fun h => by simp at h, fun t' e => by cases e; exact ⟨h, rfl, ht0, fun _ _ => rfl, rfl⟩⟩
      · simp only [if_neg h1]
        by_cases h2 : OctNode.Outside size (q + t0 * u)
        · simp only [if_pos h2]
          exact ⟨fun h => by simp at h, fun t' e => by cases e; exact ⟨h, rfl, ht0, fun _ _ => rfl, rfl⟩⟩
        · simp only [if_neg h2]
          set bx := decide ((q + t0 * u).x ≥ size / 2)
          set bY := decide ((q + t0 * u).y ≥ size / 2)
          set bz := decide ((q + t0 * u).z ≥ size / 2)
          set i := OctNode.index bx bY bz
          set g : Heap OctData 8 := h.write a ⟨⟨size, size / 2, false, v⟩, pt⟩ with hg
          have hga : g.cells a = some ⟨⟨size, size / 2, false, v⟩, pt⟩ := by simp [hg, Heap.write]
          have hgo : ∀ b, b ≠ a → g.cells b = h.cells b := fun b hb => by
            simp [hg, Heap.write, Function.update_of_ne hb]
          have hgch : ∀ j, Owns g.cells (pt j) (octTree v (children j)) (Fs j) := fun j =>
            (hch j).congr fun b hb => hgo b fun e => ha j (e ▸ hb)
          have hob : ∀ g, World.obj ⟨g, objs⟩ v = .ok o := fun g => by simp [World.obj, hobj]
          simp only [hob]
          -- the child, then the rest
          have hrest : ∀ (g' : Heap OctData 8) (ch : Fin 8 → OctNode),
              Owns g'.cells (some a) (octTree v (.node size false ch)) (insert a (Finset.univ.biUnion Fs)) →
              (∀ b, b ∉ insert a (Finset.univ.biUnion Fs) → g'.cells b = h.cells b) → g'.next = h.next →
              ∀ d, (OctNode.raytrace o.resolution n (.node size false ch) q u d t1 = .error .hang →
                World.rayNode objs n g' a q u d t1 = .error .hang) ∧
              ∀ t', OctNode.raytrace o.resolution n (.node size false ch) q u d t1 = .ok t' →
                ∃ h', World.rayNode objs n g' a q u d t1 = .ok h' ∧
                Owns h'.cells (some a) (octTree v t') (insert a (Finset.univ.biUnion Fs)) ∧
                (∀ b, b ∉ insert a (Finset.univ.biUnion Fs) → h'.cells b = h.cells b) ∧ h'.next = h.next := by
            intro g' ch how hold hnx d
            obtain ⟨i1, i2⟩ := ih g' a (.node size false ch) _ q d how
            refine ⟨i1, fun t' e => ?_⟩
            obtain ⟨h', e', how', hold', hnx'⟩ := i2 t' e
            exact ⟨h', e', how', fun b hb => by rw [hold' b hb, hold b hb], by rw [hnx', hnx]⟩
          cases hpi : pt i with
          | none =>
            have hci : children i = .null := by
              have := hgch i
              rw [hpi] at this
              cases hci : children i with
              | null => rfl
              | node => rw [hci] at this; obtain ⟨_, _, _, h, _⟩ := this; simp at h
            simp only [hci]
            exact hrest g children ⟨a, pt, Fs, rfl, hga, hgch, ha, hdis, rfl⟩ (fun b hb => hgo b fun e => hb (by simp [e])) rfl _
          | some b =>
            have how := hgch i
            rw [hpi] at how
            cases hci : children i with
            | null => rw [hci] at how; simp [octTree, Owns] at how
            | node s2 o2 c2 =>
              rw [hci] at how
              obtain ⟨i1, i2⟩ := ih g b _ (Fs i) (q - OctNode.shift size bx bY bz) t0 how
              simp only []
              cases hray : OctNode.raytrace o.resolution n (.node s2 o2 c2) (q - OctNode.shift size bx bY bz) u t0 t1 with
              | error e =>
                simp only []
                refine ⟨fun hh => ?_, fun t' hh => by simp at hh⟩
                simp only [Except.error.injEq] at hh
                subst hh
                have := i1 hray
                simp only [OctNode.shift] at this
                rw [this]
              | ok c' =>
                obtain ⟨g', e', how', hold', hnx'⟩ := i2 c' hray
                simp only [OctNode.shift] at e'
                simp only [pure, Except.pure, e']
                have haF : a ∉ Fs i := ha i
                have := Owns.change (ch := fun j => octTree v (children j)) (d := ⟨size, size / 2, false, v⟩) hgch ha hdis i how' haF
                  (fun j hj => hdis i j (Ne.symm hj))
                  (by rw [hold' a haF, hga, ← hpi, Function.update_eq_self])
                  (fun j hj y hy => hold' y fun hG => Finset.disjoint_left.1 (hdis i j (Ne.symm hj)) hG hy)
                rw [Function.update_eq_self] at this
                refine hrest g' (Function.update children i c') ?_ ?_ (by rw [hnx']; rfl) _
                · simp only [octTree, octTree_update]
                  exact this
                · intro y hy
                  have hya : y ≠ a := fun e => hy (by simp [e])
                  rw [hold' y fun hG => hy (Finset.mem_insert_of_mem (Finset.mem_biUnion.2 ⟨i, Finset.mem_univ i, hG⟩)), hgo y hya]

end Geo
