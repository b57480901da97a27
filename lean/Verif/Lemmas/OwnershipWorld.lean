import Verif.Lemmas.Ownership

/-!
# Programs with octrees on the heap
-/

namespace Geo

open Spec

/-- The objects hold the values in disjoint sets of nodes, which are all nodes. (Device of the proofs.) -/
structure Inv (s : ℕ → Option Octree) (w : World) (Fs : ℕ → Finset ℕ) : Prop where
  gone : ∀ v, s v = none → w.objs v = none ∧ Fs v = ∅
  held : ∀ v t, s v = some t → ∃ o, w.objs v = some o ∧ o.resolution = t.resolution ∧ o.offset = t.offset ∧
    o.max = t.max ∧ o.size = t.size ∧ Owns w.heap.cells (some o.root) (octTree v t.root) (Fs v)
  apart : ∀ u v, u ≠ v → Disjoint (Fs u) (Fs v)
  all : ∀ b, w.heap.cells b ≠ none → ∃ v, b ∈ Fs v
  bound : ∀ b, w.heap.cells b ≠ none → b < w.heap.next

theorem Inv.empty : Inv (fun _ => none) World.empty (fun _ => ∅) :=
  ⟨fun _ _ => ⟨rfl, rfl⟩, by simp, by simp, by simp [World.empty, Heap.empty], by simp [World.empty, Heap.empty]⟩

theorem Inv.lt {s : ℕ → Option Octree} {w : World} {Fs : ℕ → Finset ℕ} (h : Inv s w Fs) (v b : ℕ)
    (hb : b ∈ Fs v) : b < w.heap.next := by
  cases hs : s v with
  | none => rw [(h.gone v hs).2] at hb; simp at hb
  | some t =>
    obtain ⟨o, -, -, -, -, -, how⟩ := h.held v t hs
    exact h.bound b (how.live b hb)

theorem Inv.depth {s : ℕ → Option Octree} {w : World} {Fs : ℕ → Finset ℕ} (h : Inv s w Fs) (v : ℕ)
    {p : Option ℕ} {t : PTree OctData 8} (ht : Owns w.heap.cells p t (Fs v)) : t.depth ≤ w.heap.next + 1 := by
  have h1 := ht.depth_le
  have h2 : (Fs v).card ≤ (Finset.range w.heap.next).card :=
    Finset.card_le_card fun b hb => Finset.mem_range.2 (h.lt v b hb)
  rw [Finset.card_range] at h2
  omega

/-- Replacing the nodes of one object by others. -/
theorem Inv.replace {s : ℕ → Option Octree} {w : World} {Fs : ℕ → Finset ℕ} (h : Inv s w Fs) (v : ℕ)
    {g : Heap OctData 8} {ob : Option OctObj} {t : Option Octree} {G : Finset ℕ}
    (hG : ∀ b ∈ G, b ∈ Fs v ∨ (w.heap.next ≤ b ∧ b < g.next))
    (hold : ∀ u, u ≠ v → ∀ b ∈ Fs u, g.cells b = w.heap.cells b)
    (hall : ∀ b, g.cells b ≠ none → b ∈ G ∨ ∃ u, u ≠ v ∧ b ∈ Fs u) (hnx : w.heap.next ≤ g.next)
    (hgone : t = none → ob = none ∧ G = ∅)
    (hheld : ∀ t', t = some t' → ∃ o, ob = some o ∧ o.resolution = t'.resolution ∧ o.offset = t'.offset ∧
      o.max = t'.max ∧ o.size = t'.size ∧ Owns g.cells (some o.root) (octTree v t'.root) G) :
    Inv (Function.update s v t) ⟨g, Function.update w.objs v ob⟩ (Function.update Fs v G) := by
  have hdis : ∀ u, u ≠ v → Disjoint G (Fs u) := fun u hu => Finset.disjoint_left.2 fun b hb hbu => by
    rcases hG b hb with h1 | h1
    · exact Finset.disjoint_left.1 (h.apart v u (Ne.symm hu)) h1 hbu
    · have := h.lt u b hbu
      omega
  refine ⟨?_, ?_, ?_, ?_, ?_⟩
  · intro u hu
    by_cases huv : u = v
    · subst huv
      simp only [Function.update_self] at hu ⊢
      exact hgone hu
    · simp only [Function.update_of_ne huv] at hu ⊢
      exact h.gone u hu
  · intro u t' hu
    by_cases huv : u = v
    · subst huv
      simp only [Function.update_self] at hu ⊢
      exact hheld t' hu
    · simp only [Function.update_of_ne huv] at hu ⊢
      obtain ⟨o, e, e1, e2, e3, e4, how⟩ := h.held u t' hu
      exact ⟨o, e, e1, e2, e3, e4, how.congr (hold u huv)⟩
  · intro u u' huu
    by_cases huv : u = v
    · subst huv
      simp only [Function.update_self, Function.update_of_ne (Ne.symm huu)]
      exact hdis u' (Ne.symm huu)
    · by_cases huv' : u' = v
      · subst huv'
        simp only [Function.update_self, Function.update_of_ne huu]
        exact (hdis u huu).symm
      · simp only [Function.update_of_ne huv, Function.update_of_ne huv']
        exact h.apart u u' huu
  · intro b hb
    rcases hall b hb with h1 | ⟨u, hu, h1⟩
    · exact ⟨v, by simpa using h1⟩
    · exact ⟨u, by simpa [Function.update_of_ne hu] using h1⟩
  · intro b hb
    rcases hall b hb with h1 | ⟨u, hu, h1⟩
    · rcases hG b h1 with h2 | h2
      · have := h.lt v b h2
        show b < g.next
        omega
      · exact h2.2
    · have := h.lt u b h1
      show b < g.next
      omega

theorem known_ok {α : Type} {s : ℕ → Option α} {v : ℕ} {t : α} (h : known s v = .ok t) : s v = some t := by
  unfold known at h
  split at h
  · cases h; assumption
  · simp at h

theorem unbounded_sim {α β : Type} {f : ℕ → Exec α} {g : ℕ → Exec β} {a : α} (hf : unbounded f = .ok a)
    (hh : ∀ n, f n = .error .hang → g n = .error .hang) :
    ∃ n, f n = .ok a ∧ (g n ≠ .error .hang → unbounded g = g n) := by
  classical
  unfold unbounded at hf
  split_ifs at hf with hex
  refine ⟨Nat.find hex, hf, fun hg => ?_⟩
  have hex' : ∃ n, g n ≠ .error .hang := ⟨_, hg⟩
  unfold unbounded
  rw [dif_pos hex']
  congr 1
  apply le_antisymm (Nat.find_min' hex' hg)
  by_contra hlt
  rw [not_le] at hlt
  exact Nat.find_spec hex' (hh _ (not_not.1 (Nat.find_min hex hlt)))

/-- `add`. -/
theorem Inv.add {s s' : ℕ → Option Octree} {w : World} {Fs : ℕ → Finset ℕ} (h : Inv s w Fs) {v : ℕ} {p : Vec3}
    (hs : valueStep s (.add v p) = .ok s') : ∃ w' Fs', w.add v p = .ok w' ∧ Inv s' w' Fs' := by
  simp only [valueStep] at hs
  cases hv : known s v with
  | error e => rw [hv] at hs; simp [bind, Except.bind] at hs
  | ok t =>
    rw [hv] at hs
    simp only [bind, Except.bind, pure, Except.pure, Octree.add] at hs
    obtain ⟨o, ho, e1, e2, e3, e4, how⟩ := h.held v t (known_ok hv)
    cases hr : (unbounded fun n => OctNode.add t.resolution n t.root (p - t.offset)) with
    | error e => rw [hr] at hs; simp at hs
    | ok r =>
      rw [hr] at hs
      simp only [Except.ok.injEq] at hs
      subst hs
      have key := fun n => addNode_owns ho n w.heap o.root t.root (Fs v) (p - o.offset) how h.bound
      rw [← e1, ← e2] at hr
      obtain ⟨n, hn, hn'⟩ := unbounded_sim (g := fun n => World.addNode w.objs n w.heap o.root (p - o.offset)) hr
        (fun n => (key n).1)
      obtain ⟨g, G, hadd, how', hsub, hnew, hold, hnx⟩ := (key n).2 r hn
      have hun := hn' (by rw [hadd]; simp)
      rw [hadd] at hun
      refine ⟨⟨g, Function.update w.objs v (some o)⟩, Function.update Fs v G, ?_, ?_⟩
      · simp only [World.add, World.obj, ho, bind, Except.bind, hun, pure, Except.pure]
        rw [← ho, Function.update_eq_self]
      · refine h.replace v hnew ?_ ?_ hnx (by simp) ?_
        · intro u hu b hb
          refine hold b fun hG => ?_
          rcases hnew b hG with h1 | h1
          · exact Finset.disjoint_left.1 (h.apart u v hu) hb h1
          · have := h.lt u b hb
            omega
        · intro b hb
          by_cases hG : b ∈ G
          · exact .inl hG
          · right
            rw [hold b hG] at hb
            obtain ⟨x, hx⟩ := h.all b hb
            exact ⟨x, fun e => hG (hsub (e ▸ hx)), hx⟩
        · rintro t' ⟨⟩
          exact ⟨_, rfl, e1, e2, e3, e4, how'⟩

theorem value_add {s : ℕ → Option Octree} {v : ℕ} {t t' : Octree} {p : Vec3} (hv : s v = some t)
    (h : t.add p = .ok t') : valueStep s (.add v p) = .ok (Function.update s v (some t')) := by
  simp [valueStep, known, hv, h, bind, Except.bind, pure, Except.pure]

/-- `raytrace`. -/
theorem Inv.raytrace {s s' : ℕ → Option Octree} {w : World} {Fs : ℕ → Finset ℕ} (h : Inv s w Fs) {v : ℕ} {r : Ray}
    {t0 t1 : ℝ} (hs : valueStep s (.raytrace v r t0 t1) = .ok s') :
    ∃ w' Fs', w.raytrace v r t0 t1 = .ok w' ∧ Inv s' w' Fs' := by
  simp only [valueStep] at hs
  cases hv : known s v with
  | error e => rw [hv] at hs; simp [bind, Except.bind] at hs
  | ok t =>
    rw [hv] at hs
    simp only [bind, Except.bind, pure, Except.pure, Octree.raytrace] at hs
    obtain ⟨o, ho, e1, e2, e3, e4, how⟩ := h.held v t (known_ok hv)
    simp only [World.raytrace, World.obj, ho, bind, Except.bind, pure, Except.pure]
    rw [← e2, ← e3] at hs
    cases hhit : ((Box.new o.offset o.max).intersectRay r t0 t1 0).1 with
    | false =>
      simp only [hhit, Bool.not_false, if_true, Except.ok.injEq] at hs ⊢
      rw [← known_ok hv, Function.update_eq_self] at hs
      subst hs
      exact ⟨w, Fs, rfl, h⟩
    | true =>
      simp only [hhit, Bool.not_true, Bool.false_eq_true, if_false] at hs ⊢
      cases hr : (unbounded fun n => t.root.raytrace t.resolution n (r.origin - o.offset) r.direction
          (t0 + Max.max ((Box.new o.offset o.max).intersectRay r t0 t1 0).2 0 + t.resolution * 0.1) t1) with
      | error e => rw [hr] at hs; simp at hs
      | ok c =>
        rw [hr] at hs
        simp only [] at hs
        have hsame : (⟨t.resolution, o.offset, o.max, t.size, c, t.mesh, t.base⟩ : Octree) = { t with root := c } := by
          rw [e2, e3]
        rw [hsame] at hs
        rw [← e1] at hr
        have key := fun n => rayNode_owns ho n w.heap o.root t.root (Fs v) (r.origin - o.offset) r.direction
          (t0 + Max.max ((Box.new o.offset o.max).intersectRay r t0 t1 0).2 0 + o.resolution * 0.1) t1 how
        obtain ⟨n, hn, hn'⟩ := unbounded_sim (g := fun n => World.rayNode w.objs n w.heap o.root (r.origin - o.offset)
          r.direction (t0 + Max.max ((Box.new o.offset o.max).intersectRay r t0 t1 0).2 0 + o.resolution * 0.1) t1) hr
          (fun n => (key n).1)
        obtain ⟨g, hray, how', hold, hnx⟩ := (key n).2 c hn
        have hun := hn' (by rw [hray]; simp)
        rw [hray] at hun
        rw [hun]
        simp only []
        -- the tree between the two steps
        have hmid : Inv (Function.update s v (some { t with root := c })) ⟨g, w.objs⟩ (Function.update Fs v (Fs v)) := by
          have := h.replace v (g := g) (ob := some o) (t := some { t with root := c }) (G := Fs v) (fun b hb => .inl hb)
            (fun u hu b hb => hold b fun hG => Finset.disjoint_left.1 (h.apart u v hu) hb hG)
            (fun b hb => by
              by_cases hG : b ∈ Fs v
              · exact .inl hG
              · rw [hold b hG] at hb
                obtain ⟨x, hx⟩ := h.all b hb
                exact .inr ⟨x, fun e => hG (e ▸ hx), hx⟩) (by rw [hnx]) (by simp)
            (by rintro t' ⟨⟩; exact ⟨o, rfl, e1, e2, e3, e4, how'⟩)
          rwa [← ho, Function.update_eq_self] at this
        cases hadd : ({ t with root := c } : Octree).add (r.origin + r.direction * t1) with
        | error e => rw [hadd] at hs; simp at hs
        | ok t' =>
          rw [hadd] at hs
          simp only [Except.ok.injEq] at hs
          subst hs
          obtain ⟨w', F', ew, hi⟩ := hmid.add (p := r.origin + r.direction * t1) (s' := Function.update s v (some t')) (by
            have := value_add (s := Function.update s v (some { t with root := c })) (v := v) (by simp) hadd
            rwa [Function.update_idem] at this)
          refine ⟨w', F', ew, ?_, ?_, hi.apart, hi.all, hi.bound⟩
          · intro u hu
            by_cases huv : u = v
            · subst huv; simp at hu
            · exact hi.gone u (by simpa [Function.update_of_ne huv] using hu)
          · intro u t2 hu
            by_cases huv : u = v
            · subst huv
              simp only [Function.update_self, Option.some.injEq] at hu
              subst hu
              exact hi.held u t' (by simp)
            · exact hi.held u t2 (by simpa [Function.update_of_ne huv] using hu)

/-- A statement other than an assignment does what it does on values. -/
theorem Inv.step {s s' : ℕ → Option Octree} {w : World} {Fs : ℕ → Finset ℕ} (h : Inv s w Fs) {op : OctOp}
    (hop : ∀ v u, op ≠ .assign v u) (hs : valueStep s op = .ok s') :
    ∃ w' Fs', w.step op = .ok w' ∧ Inv s' w' Fs' := by
  cases op with
  | create v size resolution =>
    cases hv : s v with
    | some t => simp [valueStep, hv] at hs
    | none =>
      obtain ⟨hov, hFv⟩ := h.gone v hv
      simp only [valueStep, hv, Option.isSome_none, Bool.false_eq_true, if_false, Octree.new,
        Octree.setResolution] at hs
      cases hr : (unbounded fun n => Octree.halve resolution n size) with
      | error e => rw [hr] at hs; simp [bind, Except.bind] at hs
      | ok r =>
        rw [hr] at hs
        simp only [bind, Except.bind, pure, Except.pure, Except.ok.injEq] at hs
        subst hs
        refine ⟨?w1, Function.update Fs v {w.heap.next}, ?x1, ?y1⟩
        case x1 =>
          simp only [World.step, hov, Option.isSome_none, Bool.false_eq_true, if_false, World.create, hr, bind,
            Except.bind, pure, Except.pure]
          rfl
        case y1 =>
          refine h.replace v (g := (w.heap.alloc (World.nodeData size v)).1) ?_ ?_ ?_ ?_ ?_ ?_
          · intro b hb
            rw [Finset.mem_singleton.1 hb]
            exact .inr ⟨le_rfl, by simp [Heap.alloc, Heap.write]⟩
          · intro u hu b hb
            have := h.lt u b hb
            simp [Heap.alloc, Heap.write, Function.update_of_ne (show b ≠ w.heap.next by omega)]
          · intro b hb
            by_cases hbn : b = w.heap.next
            · exact .inl (by simp [hbn])
            · right
              simp only [Heap.alloc, Heap.write, Function.update_of_ne hbn] at hb
              obtain ⟨u, hu⟩ := h.all b hb
              exact ⟨u, fun e => by rw [e, hFv] at hu; simp at hu, hu⟩
          · simp [Heap.alloc, Heap.write]
          · intro e; simp at e
          · rintro t' ⟨⟩
            refine ⟨_, rfl, rfl, rfl, rfl, rfl, w.heap.next, fun _ => none, fun _ => ∅, rfl, ?_, fun _ => ⟨rfl, rfl⟩,
              fun _ => Finset.notMem_empty _, fun _ _ _ => Finset.disjoint_empty_left _, by ext; simp⟩
            simp [Heap.alloc, Heap.write, World.nodeData]
  | copy v u =>
    cases hv : s v with
    | some t => simp [valueStep, hv] at hs
    | none =>
      obtain ⟨hov, hFv⟩ := h.gone v hv
      simp only [valueStep, hv, Option.isSome_none, Bool.false_eq_true, if_false] at hs
      cases hu : known s u with
      | error e => rw [hu] at hs; simp [bind, Except.bind] at hs
      | ok t =>
        rw [hu] at hs
        simp only [bind, Except.bind, pure, Except.pure, Except.ok.injEq] at hs
        subst hs
        obtain ⟨o, ho, e1, e2, e3, e4, how⟩ := h.held u t (known_ok hu)
        obtain ⟨g, a', G, hcopy, how', hnew, hold, hnx⟩ := copy_owns (fun d : OctData => { d with tree := v })
          (w.heap.next + 1) w.heap o.root _ _ how (h.depth u how) h.bound
        rw [octTree_map] at how'
        refine ⟨?w2, Function.update Fs v G, ?x2, ?y2⟩
        case x2 =>
          simp only [World.step, hov, Option.isSome_none, Bool.false_eq_true, if_false, World.copy, World.obj, ho,
            bind, Except.bind, hcopy, pure, Except.pure]
          rfl
        case y2 =>
          refine h.replace v (fun b hb => .inr (hnew b hb)) ?_ ?_ hnx (by simp) ?_
          · intro x hx b hb
            refine hold b fun hG => ?_
            have := h.lt x b hb
            have := hnew b hG
            omega
          · intro b hb
            by_cases hG : b ∈ G
            · exact .inl hG
            · right
              rw [hold b hG] at hb
              obtain ⟨x, hx⟩ := h.all b hb
              exact ⟨x, fun e => by rw [e, hFv] at hx; simp at hx, hx⟩
          · rintro t' ⟨⟩
            exact ⟨_, rfl, e1, e2, e3, e4, how'⟩
  | destroy v =>
    simp only [valueStep] at hs
    cases hv : known s v with
    | error e => rw [hv] at hs; simp [bind, Except.bind] at hs
    | ok t =>
      rw [hv] at hs
      simp only [bind, Except.bind, pure, Except.pure, Except.ok.injEq] at hs
      subst hs
      obtain ⟨o, ho, e1, e2, e3, e4, how⟩ := h.held v t (known_ok hv)
      obtain ⟨g, hdel, hnx, hgone, hold⟩ := delete_owns (w.heap.next + 1) w.heap o.root _ _ how (h.depth v how)
      refine ⟨?w3, Function.update Fs v ∅, ?x3, ?y3⟩
      case x3 =>
        simp only [World.step, World.destroy, World.obj, ho, bind, Except.bind, hdel, pure, Except.pure]
        rfl
      case y3 =>
        refine h.replace v (by simp) ?_ ?_ hnx.ge (by simp) (by simp)
        · intro u hu b hb
          exact hold b fun hG => Finset.disjoint_left.1 (h.apart u v hu) hb hG
        · intro b hb
          right
          have hbv : b ∉ Fs v := fun hG => hb (hgone b hG)
          rw [hold b hbv] at hb
          obtain ⟨x, hx⟩ := h.all b hb
          exact ⟨x, fun e => hbv (e ▸ hx), hx⟩
  | clear v =>
    simp only [valueStep] at hs
    cases hv : known s v with
    | error e => rw [hv] at hs; simp [bind, Except.bind] at hs
    | ok t =>
      rw [hv] at hs
      simp only [bind, Except.bind, pure, Except.pure, Except.ok.injEq] at hs
      subst hs
      obtain ⟨o, ho, e1, e2, e3, e4, how⟩ := h.held v t (known_ok hv)
      obtain ⟨g, hdel, hnx, hgone, hold⟩ := delete_owns (w.heap.next + 1) w.heap o.root _ _ how (h.depth v how)
      refine ⟨?w4, Function.update Fs v {g.next}, ?x4, ?y4⟩
      case x4 =>
        simp only [World.step, World.clear, World.obj, ho, bind, Except.bind, hdel, pure, Except.pure]
        rfl
      case y4 =>
        refine h.replace v ?_ ?_ ?_ ?_ (by simp) ?_
        · intro b hb
          rw [Finset.mem_singleton.1 hb]
          exact .inr ⟨hnx.ge, by simp [Heap.alloc, Heap.write]⟩
        · intro u hu b hb
          have := h.lt u b hb
          simp only [Heap.alloc, Heap.write, Function.update_of_ne (show b ≠ g.next by omega)]
          exact hold b fun hG => Finset.disjoint_left.1 (h.apart u v hu) hb hG
        · intro b hb
          by_cases hbn : b = g.next
          · exact .inl (by simp [hbn])
          · right
            simp only [Heap.alloc, Heap.write, Function.update_of_ne hbn] at hb
            have hbv : b ∉ Fs v := fun hG => hb (hgone b hG)
            rw [hold b hbv] at hb
            obtain ⟨x, hx⟩ := h.all b hb
            exact ⟨x, fun e => hbv (e ▸ hx), hx⟩
        · simp [Heap.alloc, Heap.write, hnx]
        · rintro t' ⟨⟩
          refine ⟨_, rfl, e1, e2, e3, e4, g.next, fun _ => none, fun _ => ∅, rfl, ?_, fun _ => ⟨rfl, rfl⟩,
            fun _ => Finset.notMem_empty _, fun _ _ _ => Finset.disjoint_empty_left _, by ext; simp⟩
          simp [Heap.alloc, Heap.write, World.nodeData, e4]
  | add v p => exact h.add hs
  | raytrace v r t0 t1 => exact h.raytrace hs
  | setResolution v resolution =>
    simp only [valueStep] at hs
    cases hv : known s v with
    | error e => rw [hv] at hs; simp [bind, Except.bind] at hs
    | ok t =>
      rw [hv] at hs
      simp only [bind, Except.bind, pure, Except.pure, Octree.setResolution] at hs
      obtain ⟨o, ho, e1, e2, e3, e4, how⟩ := h.held v t (known_ok hv)
      cases hr : (unbounded fun n => Octree.halve resolution n t.size) with
      | error e => rw [hr] at hs; simp at hs
      | ok r =>
        rw [hr] at hs
        simp only [Except.ok.injEq] at hs
        subst hs
        refine ⟨?w5, Function.update Fs v (Fs v), ?x5, ?y5⟩
        case x5 =>
          simp only [World.step, World.setResolution, World.obj, ho, bind, Except.bind, e4, hr, pure, Except.pure]
          rfl
        case y5 =>
          refine h.replace v (fun b hb => .inl hb) (fun _ _ _ _ => rfl) ?_ le_rfl (by simp) ?_
          · intro b hb
            obtain ⟨x, hx⟩ := h.all b hb
            by_cases hxv : x = v
            · exact .inl (hxv ▸ hx)
            · exact .inr ⟨x, hxv, hx⟩
          · rintro t' ⟨⟩
            exact ⟨_, rfl, rfl, e2, e3, rfl, how⟩
  | assign v u => exact absurd rfl (hop v u)

/-- A program without assignments does what it does on values. -/
theorem Inv.run {s s' : ℕ → Option Octree} {w : World} {Fs : ℕ → Finset ℕ} (h : Inv s w Fs) {ops : List OctOp}
    (hop : ∀ v u, OctOp.assign v u ∉ ops) (hs : valueRun s ops = .ok s') :
    ∃ w' Fs', w.run ops = .ok w' ∧ Inv s' w' Fs' := by
  induction ops generalizing s w Fs with
  | nil => cases hs; exact ⟨w, Fs, rfl, h⟩
  | cons op ops ih =>
    simp only [valueRun, bind, Except.bind] at hs
    cases h1 : valueStep s op with
    | error e => rw [h1] at hs; simp at hs
    | ok s1 =>
      rw [h1] at hs
      obtain ⟨w1, F1, e, hi⟩ := h.step (fun v u e => hop v u (by simp [e])) h1
      obtain ⟨w2, F2, e', hi'⟩ := ih hi (fun v u hm => hop v u (by simp [hm])) hs
      exact ⟨w2, F2, by simp only [World.run, e, bind, Except.bind]; exact e', hi'⟩

theorem Inv.holds {s : ℕ → Option Octree} {w : World} {Fs : ℕ → Finset ℕ} (h : Inv s w Fs) : Holds s w := by
  refine ⟨fun v hv => (h.gone v hv).1, ?_, ?_⟩
  · intro v t hv
    obtain ⟨o, ho, e1, e2, e3, e4, how⟩ := h.held v t hv
    exact ⟨o, ho, e1, e2, e3, e4, how.spells⟩
  · intro u v o o' b ho ho' hr hr'
    by_contra huv
    have key : ∀ x ox, w.objs x = some ox → Reach w.heap.cells ox.root b → b ∈ Fs x := by
      intro x ox hx hrx
      cases hs : s x with
      | none => rw [(h.gone x hs).1] at hx; simp at hx
      | some t =>
        obtain ⟨o2, ho2, -, -, -, -, how⟩ := h.held x t hs
        rw [hx] at ho2
        cases ho2
        exact (how.reach b).1 hrx
    exact Finset.disjoint_left.1 (h.apart u v huv) (key u o ho hr) (key v o' ho' hr')

theorem Inv.noLeak {s : ℕ → Option Octree} {w : World} {Fs : ℕ → Finset ℕ} (h : Inv s w Fs) : NoLeak w := by
  intro b hb
  obtain ⟨v, hv⟩ := h.all b hb
  cases hs : s v with
  | none => rw [(h.gone v hs).2] at hv; simp at hv
  | some t =>
    obtain ⟨o, ho, -, -, -, -, how⟩ := h.held v t hs
    exact ⟨v, o, ho, (how.reach b).2 hv⟩

theorem Inv.cubes {s : ℕ → Option Octree} {w : World} {Fs : ℕ → Finset ℕ} (h : Inv s w Fs) {v : ℕ} {t : Octree}
    (hv : s v = some t) : w.getCubes v = .ok t.getCubes := by
  obtain ⟨o, ho, e1, e2, e3, e4, how⟩ := h.held v t hv
  simp only [World.getCubes, World.obj, ho, bind, Except.bind, Octree.getCubes]
  rw [nodeCubes_owns _ _ _ _ _ _ how (h.depth v how), e2]

theorem World.run_append {w w1 : World} {l m : List OctOp} (h : w.run l = .ok w1) : w.run (l ++ m) = w1.run m := by
  induction l generalizing w with
  | nil => cases h; rfl
  | cons o l ih =>
    simp only [World.run, List.cons_append, bind, Except.bind] at h ⊢
    split at h
    · simp at h
    · exact ih h

end Geo
