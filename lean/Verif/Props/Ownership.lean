import Verif.Lemmas.OwnershipHeight
import Verif.Props.HeightMap

/-!
# Octrees and height maps as owners of their nodes (C87, C88, C89)
-/

namespace Geo

open Spec

/-! ## C87 -/

/-- C87 (full statement refuted by `C87_assign_wrong`): a program that creates, copies, changes and destroys octrees, but does
not assign them, has defined behaviour whenever it has on values, and ends with the same octrees: each is spelt by
nodes that no other octree uses and returns the same cubes, and every living node belongs to an octree. -/
theorem C87_values_partial (ops : List OctOp) (hop : ∀ v u, OctOp.assign v u ∉ ops) (s : ℕ → Option Octree)
    (hs : valueRun (fun _ => none) ops = .ok s) :
    ∃ w, World.empty.run ops = .ok w ∧ Holds s w ∧ NoLeak w ∧
      ∀ v t, s v = some t → w.getCubes v = .ok t.getCubes := by
  obtain ⟨w, Fs, e, hi⟩ := Inv.empty.run hop hs
  exact ⟨w, e, hi.holds, hi.noLeak, fun v t hv => hi.cubes hv⟩

/-- C87: when a program has destroyed all octrees no node is left. -/
theorem C87_released_partial (ops : List OctOp) (hop : ∀ v u, OctOp.assign v u ∉ ops)
    (hs : valueRun (fun _ => none) ops = .ok fun _ => none) :
    ∃ w, World.empty.run ops = .ok w ∧ ∀ b, w.heap.cells b = none := by
  obtain ⟨w, e, hh, hl, -⟩ := C87_values_partial ops hop _ hs
  refine ⟨w, e, fun b => ?_⟩
  by_contra hb
  obtain ⟨v, o, ho, -⟩ := hl b hb
  rw [hh.1 v rfl] at ho
  simp at ho

/-- An octree of size and resolution 1, and a point added to it. -/
theorem unit_octree : ∃ t t' : Octree, Octree.new 1 1 = .ok t ∧ t.copy.add ⟨0, 0, 0⟩ = .ok t' ∧ t.getCubes = [] ∧
    t'.getCubes.length = 1 := by
  have h := Octree.new_eq (size := 1) (r := 1) 0 (by norm_num) (by simp)
  have hadd : unbounded (fun n => OctNode.add (1 / 2 ^ 0) n (OctNode.new 1) ((⟨0, 0, 0⟩ : Vec3) - ⟨-1 / 2, -1 / 2, -1 / 2⟩)) =
      .ok (.node 1 true fun _ => .null) := by
    refine (OctNode.add_steady _ _ _).eq (n := 1) ?_ (by simp)
    norm_num [OctNode.add, OctNode.new]
  refine ⟨_, _, h, by
    simp only [Octree.add, Octree.copy, hadd, bind, Except.bind, pure, Except.pure]; rfl, ?_, ?_⟩
  · simp [Octree.getCubes, OctNode.new, OctNode.getCubes, OctNode.octants]
  · simp [Octree.getCubes, OctNode.getCubes]

/-- C87 case: a point added to the copy of an octree is not seen in the original, and destroying the original leaves
the copy as it is. -/
example : ∃ w w', World.empty.run [.create 0 1 1, .copy 1 0, .add 1 ⟨0, 0, 0⟩] = .ok w ∧
    w.getCubes 0 = .ok [] ∧ w.step (.destroy 0) = .ok w' ∧ ∃ b, w.getCubes 1 = .ok [b] ∧ w'.getCubes 1 = .ok [b] := by
  obtain ⟨t, t', h1, h2, h3, h4⟩ := unit_octree
  obtain ⟨b, hb⟩ := List.length_eq_one_iff.1 h4
  have hr : valueRun (fun _ => none) [.create 0 1 1, .copy 1 0, .add 1 ⟨0, 0, 0⟩] =
      .ok (Function.update (Function.update (Function.update (fun _ => none) 0 (some t)) 1 (some t.copy)) 1
        (some t')) := by
    simp [valueRun, valueStep, known, h1, h2, bind, Except.bind, pure, Except.pure]
  obtain ⟨w, Fs, e, hi⟩ := Inv.empty.run (by simp) hr
  obtain ⟨w', Fs', e', hi'⟩ := hi.step (op := .destroy 0) (by simp) (s' := _) (by
    simp only [valueStep, known]
    simp [bind, Except.bind, pure, Except.pure]
    rfl)
  refine ⟨w, w', e, ?_, e', b, ?_, ?_⟩
  · rw [hi.cubes (t := t) (by simp), h3]
  · rw [hi.cubes (t := t') (by simp), hb]
  · rw [hi'.cubes (t := t') (by simp), hb]

/-- C87 case: three octrees are created and destroyed. -/
example : ∃ w, World.empty.run [.create 0 1 1, .copy 1 0, .add 1 ⟨0, 0, 0⟩, .copy 2 1, .destroy 0, .clear 1, .destroy 2,
    .destroy 1] = .ok w ∧ ∀ b, w.heap.cells b = none := by
  obtain ⟨t, t', h1, h2, h3, h4⟩ := unit_octree
  refine C87_released_partial _ (by simp) ?_
  simp only [valueRun, valueStep, known, h1, bind, Except.bind, pure, Except.pure]
  simp [h2]
  funext v
  simp only [Function.update_apply]
  split_ifs <;> rfl

/-- C87 is violated by the code: after an assignment between octrees both hold the same root, and destroying both
is undefined, while on values it is not. -/
theorem C87_assign_wrong : ∃ s, valueRun (fun _ => none) [.create 0 1 1, .create 1 1 1, .assign 0 1, .destroy 0, .destroy 1] =
      .ok s ∧
    World.empty.run [.create 0 1 1, .create 1 1 1, .assign 0 1, .destroy 0, .destroy 1] = .error .ub := by
  obtain ⟨t, t', h1, h2, h3, h4⟩ := unit_octree
  have hh : unbounded (fun n => Octree.halve 1 n 1) = .ok 1 := by
    simpa using Octree.halve_spec (r := 1) (s := 1) 0 (by simp) (by simp)
  refine ⟨_, by
    simp only [valueRun, valueStep, known, h1, bind, Except.bind, pure, Except.pure]
    simp
    rfl, ?_⟩
  simp [World.run, World.step, World.empty, World.create, World.assign, World.destroy, World.obj, hh, bind, Except.bind,
    pure, Except.pure, Heap.alloc, Heap.write, Heap.empty, Heap.delete, Heap.read, Heap.free, World.nodeData,
    List.finRange, Function.update]

/-- C87 is violated by the code: after an assignment a point added to one octree is seen in the other, and the nodes
that the octree assigned to had are lost. -/
theorem C87_shared_wrong : ∃ s w b, valueRun (fun _ => none) [.create 0 1 1, .create 1 1 1, .assign 0 1, .add 1 ⟨0, 0, 0⟩] =
      .ok s ∧
    World.empty.run [.create 0 1 1, .create 1 1 1, .assign 0 1, .add 1 ⟨0, 0, 0⟩] = .ok w ∧
    (∃ t, s 0 = some t ∧ t.getCubes = []) ∧ w.getCubes 0 = .ok [b] ∧ ¬ NoLeak w := by
  obtain ⟨t, t', h1, h2, h3, h4⟩ := unit_octree
  have h2' : ∃ t2, t.add ⟨0, 0, 0⟩ = .ok t2 := by
    simp only [Octree.add, Octree.copy, bind, Except.bind, pure, Except.pure] at h2 ⊢
    split at h2
    · simp at h2
    · exact ⟨_, rfl⟩
  obtain ⟨t2, h2'⟩ := h2'
  have hh : unbounded (fun n => Octree.halve 1 n 1) = .ok 1 := by
    simpa using Octree.halve_spec (r := 1) (s := 1) 0 (by simp) (by simp)
  let ob : OctObj := ⟨1, ⟨-1 / 2, -1 / 2, -1 / 2⟩, ⟨1 / 2, 1 / 2, 1 / 2⟩, 1, 1⟩
  let w : World := ⟨⟨2, fun b => if b = 0 then some ⟨World.nodeData 1 0, fun _ => none⟩ else
    if b = 1 then some ⟨World.nodeData 1 1, fun _ => none⟩ else none⟩, fun v => if v = 0 then some ob else
    if v = 1 then some ob else none⟩
  have hrun : World.empty.run [.create 0 1 1, .create 1 1 1, .assign 0 1] = .ok w := by
    simp [World.run, World.step, World.empty, World.create, World.assign, World.obj, hh, bind, Except.bind,
      pure, Except.pure, Heap.alloc, Heap.write, Heap.empty, w, ob]
    constructor
    · funext b; simp only [Function.update_apply]; split_ifs <;> simp_all
    · funext v; simp only [Function.update_apply]; split_ifs <;> simp_all
  have hadd : (unbounded fun n => World.addNode w.objs n w.heap 1 ((⟨0, 0, 0⟩ : Vec3) - ⟨-1 / 2, -1 / 2, -1 / 2⟩)) =
      .ok (w.heap.write 1 ⟨⟨1, 1 / 2, true, 1⟩, fun _ => none⟩) := by
    have h1 : ∀ n, World.addNode w.objs (n + 1) w.heap 1 ((⟨0, 0, 0⟩ : Vec3) - ⟨-1 / 2, -1 / 2, -1 / 2⟩) =
        .ok (w.heap.write 1 ⟨⟨1, 1 / 2, true, 1⟩, fun _ => none⟩) := fun n => by
      simp [World.addNode, Heap.read, w, World.obj, bind, Except.bind, World.nodeData, ob, pure, Except.pure]
      norm_num
    refine Steady.eq (n := 1) ?_ (h1 0) (by simp)
    intro n hn
    cases n with
    | zero => simp [World.addNode] at hn
    | succ n => exact (h1 (n + 1)).trans (h1 n).symm
  refine ⟨_, { w with heap := w.heap.write 1 ⟨⟨1, 1 / 2, true, 1⟩, fun _ => none⟩ }, _, by
    simp only [valueRun, valueStep, known, h1, bind, Except.bind, pure, Except.pure]
    simp
    rw [h2'], ?_, ⟨t, by simp, h3⟩, by
      simp [World.getCubes, World.nodeCubes, World.obj, w, ob, Heap.read, Heap.write, bind, Except.bind, pure, Except.pure]; rfl, ?_⟩
  · refine (World.run_append (m := [.add 1 ⟨0, 0, 0⟩]) hrun).trans ?_
    have ho : w.objs 1 = some ob := rfl
    simp only [World.run, World.step, World.add, World.obj, ho, bind, Except.bind, pure, Except.pure]
    rw [show ob.root = 1 from rfl, show ob.offset = ⟨-1 / 2, -1 / 2, -1 / 2⟩ from rfl, hadd]
  · intro hl
    obtain ⟨v, o, ho, hr⟩ := hl 0 (by simp [w, Heap.write])
    have ho' : o.root = 1 := by
      simp only [w] at ho
      split_ifs at ho <;> cases ho <;> rfl
    rw [ho'] at hr
    have key : ∀ b, Reach (w.heap.write 1 ⟨⟨1, 1 / 2, true, 1⟩, fun _ => none⟩).cells 1 b → b = 1 := by
      intro b hb
      induction hb with
      | start => rfl
      | next _ hc hi ih =>
        subst ih
        simp only [Heap.write, Function.update_self, Option.some.injEq] at hc
        subst hc
        simp at hi
    exact absurd (key 0 hr) (by norm_num)

/-! ## C88 -/

/-- C88 (full statement refuted by `C88_assign_wrong`): a program that creates, copies and destroys height maps, but does not assign
them, has defined behaviour whenever it has on values, and each height map ends as the same tree, in nodes that no
other height map uses. -/
theorem C88_values_partial (ops : List HOp) (hop : ∀ v u, HOp.assign v u ∉ ops) (s : ℕ → Option HNode)
    (hs : heightRun (fun _ => none) ops = .ok s) :
    ∃ w, HWorld.empty.run ops = .ok w ∧ HoldsHeight s w := by
  obtain ⟨w, Fs, e, hi⟩ := InvH.empty.run hop hs
  exact ⟨w, e, hi.holds⟩

/-- C88 case: the copy of a height map outlives the original. -/
example : ∃ h w, HeightMap.fromGrid [[10], [10]] 1 = .ok h ∧
    HWorld.empty.run [.fromGrid 0 [[10], [10]] 1, .copy 1 0, .destroy 0] = .ok w ∧
    ∃ a, w.objs 1 = some a ∧ Spells w.heap.cells a (heightTree h.root) := by
  obtain ⟨hg, hr, e0, e1⟩ := twoColumns
  obtain ⟨h, hh⟩ := C42_returns _ 2 1 1 hg (by norm_num) hr
  obtain ⟨w, e, hi⟩ := C88_values_partial [.fromGrid 0 [[10], [10]] 1, .copy 1 0, .destroy 0] (by simp) _ (by
    simp only [heightRun, heightStep, known, hh, bind, Except.bind, pure, Except.pure]
    simp
    rfl)
  obtain ⟨a, ha, hs⟩ := hi.2.1 1 h.root (by simp)
  exact ⟨h, w, hh, e, a, ha, hs⟩

/-- C88: the move constructor of a node gives the new node the whole tree and leaves the old one without children; the
other nodes are as before. -/
theorem C88_move (h : Heap HData 4) (a : ℕ) (box : Box) (occupied : Bool) (children : Fin 4 → HNode)
    (hb : ∀ b, h.cells b ≠ none → b < h.next)
    (hs : Spells h.cells (some a) (heightTree (.node box occupied children))) :
    ∃ h' a', HWorld.moveNode h a = .ok (h', a') ∧ h.cells a' = none ∧
      Spells h'.cells (some a') (heightTree (.node box occupied children)) ∧
      Spells h'.cells (some a) (heightTree (.node box occupied fun _ => .null)) ∧
      ∀ b, b ≠ a → b ≠ a' → h'.cells b = h.cells b := by
  have hs0 := hs
  obtain ⟨x, pt, e, hc, hch⟩ := hs
  cases e
  have hnone : h.cells h.next = none := by
    by_contra hn
    exact lt_irrefl _ (hb _ hn)
  have hne : a ≠ h.next := fun e => by rw [e, hnone] at hc; simp at hc
  refine ⟨_, h.next, by
    simp only [HWorld.moveNode, Heap.read, hc, bind, Except.bind, pure, Except.pure]; rfl, hnone, ?_, ?_, ?_⟩
  · refine ⟨h.next, pt, rfl, by simp [Heap.write, Heap.alloc, Function.update_of_ne (Ne.symm hne)], fun i => ?_⟩
    refine Spells.frame hs0 ?_ ?_ (hch i)
    · intro b hlive hba
      have : b ≠ h.next := fun e => hlive (by rw [e, hnone])
      simp [Heap.write, Heap.alloc, Function.update_of_ne this, Function.update_of_ne hba]
    · show _ < PTree.depth (.node _ _)
      simp only [PTree.depth]
      have := Finset.le_sup (f := fun i => PTree.depth (heightTree (children i))) (Finset.mem_univ i)
      omega
  · exact ⟨a, fun _ => none, rfl, by simp [Heap.write], fun i => rfl⟩
  · intro b h1 h2
    simp [Heap.write, Heap.alloc, Function.update_of_ne h1, Function.update_of_ne h2]

/-- C88 case: a node with one child. -/
example : ∃ (h : Heap HData 4) (a : ℕ) (box : Box), (∀ b, h.cells b ≠ none → b < h.next) ∧
    Spells h.cells (some a) (heightTree (.node box false fun i => if i = 2 then .node box true fun _ => .null else .null)) := by
  let box : Box := Box.new ⟨0, 0, 0⟩ ⟨1, 1, 1⟩
  let t : HNode := .node box false fun i => if i = 2 then .node box true fun _ => .null else .null
  obtain ⟨F, hw, hF, ho, -⟩ := build_owns t Heap.empty
  refine ⟨(HWorld.build t Heap.empty).1, 0, box, fun b hb => ?_, hw.spells⟩
  by_cases hbF : b ∈ F
  · exact (hF b hbF).2
  · rw [ho b hbF] at hb
    simp [Heap.empty] at hb

/-- C88 is violated by the code: after an assignment between height maps both hold the same root, and destroying both
is undefined, while on values it is not. -/
theorem C88_assign_wrong : ∃ s, heightRun (fun _ => none) [.fromGrid 0 [[10], [10]] 1, .create 1, .assign 1 0, .destroy 0, .destroy 1] =
      .ok s ∧
    HWorld.empty.run [.fromGrid 0 [[10], [10]] 1, .create 1, .assign 1 0, .destroy 0, .destroy 1] = .error .ub := by
  obtain ⟨hg, hr, e0, e1⟩ := twoColumns
  obtain ⟨h, hh⟩ := C42_returns _ 2 1 1 hg (by norm_num) hr
  refine ⟨_, by
    simp only [heightRun, heightStep, known, hh, bind, Except.bind, pure, Except.pure]
    simp
    rfl, ?_⟩
  obtain ⟨⟨cells, -, hc, hl⟩, -⟩ := (C42_tree _ 2 1 1 hg (by norm_num) (by norm_num) (by norm_num)).1 h hh
  obtain ⟨F, hw, -⟩ := build_owns h.root Heap.empty
  cases hroot : h.root with
  | null =>
    have := (hc (0, 0)).2 (by rw [e0]; norm_num)
    rw [hroot] at hl
    simp only [leaves] at hl
    rw [List.map_eq_nil_iff.1 hl.symm] at this
    simp at this
  | node box occupied children =>
    rw [hroot] at hw
    obtain ⟨a, pt, Gs, ha, hca, -⟩ := hw
    simp only [HWorld.run, HWorld.step, HWorld.empty, HWorld.fromGrid, HWorld.create, HWorld.assign, HWorld.destroy, HWorld.obj, hh, hroot,
      bind, Except.bind, pure, Except.pure]
    simp [ha, Heap.free, hca]

/-! ## C89 -/

/-- C89 (full statement, for all grids, refuted by `C89_leak_wrong`): after a height map is made from a grid and destroyed, all of its
nodes are released exactly when the grid is a single cell or has no positive cell. -/
theorem C89_released_partial (grid : List (List ℝ)) (m n : ℕ) (res : ℝ) (hg : Rectangular grid m n) (hm : 0 < m)
    (hm' : m ≤ 2 ^ 31) (hn : n ≤ 2 ^ 31) (h : HeightMap) (hh : HeightMap.fromGrid grid res = .ok h) (v : ℕ) :
    ∃ w, HWorld.empty.run [.fromGrid v grid res, .destroy v] = .ok w ∧ (∀ u, w.objs u = none) ∧
      ((∀ b, w.heap.cells b = none) ↔ (m = 1 ∧ n ≤ 1) ∨ ∀ x y, height grid x y ≤ 0) := by
  obtain ⟨k, ⟨h1, h1'⟩, h2, h3⟩ := HeightMap.root_of_ok hg hm hm' hn hh
  have hleaf := HeightMap.leaf_iff hg (res := res) h1 h2
  rw [← h3] at hleaf
  obtain ⟨F, hw, -, hF, -⟩ := build_owns h.root Heap.empty
  cases hroot : h.root with
  | null =>
    refine ⟨⟨Heap.empty, fun _ => none⟩, ?_, fun _ => rfl, ?_⟩
    · simp [HWorld.run, HWorld.step, HWorld.empty, HWorld.fromGrid, HWorld.destroy, HWorld.obj, hh, hroot, HWorld.build,
        bind, Except.bind, pure, Except.pure]
    · refine ⟨fun _ => .inr fun x y => ?_, fun _ _ => rfl⟩
      by_contra hp
      have := (hleaf _).2 ⟨(x, y), not_le.1 hp, rfl⟩
      rw [hroot] at this
      simp [leaves] at this
  | node box occupied children =>
    rw [hroot] at hw hF
    obtain ⟨a, pt, Gs, ha, hca, hch, haG, -, hFG⟩ := hw
    refine ⟨⟨⟨(HWorld.build (.node box occupied children) Heap.empty).1.next,
      Function.update (HWorld.build (.node box occupied children) Heap.empty).1.cells a none⟩, fun _ => none⟩, ?_,
      fun _ => rfl, ?_⟩
    · simp only [HWorld.run, HWorld.step, HWorld.empty, HWorld.fromGrid, HWorld.destroy, HWorld.obj, hh, hroot,
        bind, Except.bind, pure, Except.pure]
      simp [ha, Heap.free, hca]
    · have key : (∀ b, (Function.update (HWorld.build (.node box occupied children) Heap.empty).1.cells a none) b = none) ↔
          ∀ i, children i = .null := by
        constructor
        · intro hall i
          have hi : Owns _ (pt i) (heightTree (children i)) (Gs i) := hch i
          cases hci : children i with
          | null => rfl
          | node b2 o2 c2 =>
            rw [hci] at hi
            obtain ⟨x, pt2, Gs2, hx, hcx, -, -, -, hG2⟩ := hi
            have hxa : x ≠ a := fun e => haG i (by rw [hG2, ← e]; simp)
            have := hall x
            rw [Function.update_of_ne hxa, hcx] at this
            simp at this
        · intro hnull b
          by_cases hba : b = a
          · rw [hba]; simp
          · rw [Function.update_of_ne hba, hF b ?_]
            · rfl
            · intro hb
              rw [hFG] at hb
              rcases Finset.mem_insert.1 hb with hb | hb
              · exact hba hb
              · obtain ⟨i, -, hb⟩ := Finset.mem_biUnion.1 hb
                have hi : Owns _ (pt i) (heightTree (children i)) (Gs i) := hch i
                rw [hnull i] at hi
                rw [hi.2] at hb
                simp at hb
      refine Iff.trans key ?_
      rw [hroot] at h3
      cases k with
      | zero =>
        have hm1 : m = 1 := by omega
        refine ⟨fun _ => .inl ⟨hm1, by simpa using h2⟩, fun _ => ?_⟩
        rw [HeightMap.quad] at h3
        split_ifs at h3
        cases h3
        exact fun _ => rfl
      | succ k =>
        have hbig : ¬ (m = 1 ∧ n ≤ 1) := by
          have := h1' 0 (by omega)
          rw [pow_zero] at this
          rcases lt_max_iff.1 this with h | h <;> omega
        have hocc : occupied = false := by
          rw [HeightMap.quad] at h3
          split_ifs at h3
          cases h3
          rfl
        constructor
        · intro hnull
          refine .inr fun x y => ?_
          by_contra hp
          have := (hleaf _).2 ⟨(x, y), not_le.1 hp, rfl⟩
          rw [hroot, hocc] at this
          simp [leaves, hnull] at this
        · rintro (h | h)
          · exact absurd h hbig
          · rw [HeightMap.quad] at h3
            split_ifs at h3 with hmax
            exfalso
            rcases (Geo.maxH_spec (height grid) 0 0 (2 ^ (k + 1))) with ⟨g0, -, g | ⟨x, y, -, -, -, -, g⟩⟩
            · exact hmax g
            · rw [g] at g0 hmax
              exact hmax (le_antisymm (h x y) g0)

/-- C89 case: a single cell, whose node is released. -/
example : ∃ h w, HeightMap.fromGrid [[10]] 1 = .ok h ∧
    HWorld.empty.run [.fromGrid 0 [[10]] 1, .destroy 0] = .ok w ∧ ∀ b, w.heap.cells b = none := by
  have hg : Rectangular [[(10 : ℝ)]] 1 1 := ⟨rfl, by simp⟩
  have hr : GridInRange [[10]] 1 1 1 := HeightMap.small_inRange (by norm_num) (by norm_num) (by norm_num [abs_of_pos]) (by
    simp only [List.mem_singleton]
    rintro _ rfl _ hv
    rw [List.mem_singleton.1 hv]
    norm_num [abs_of_pos])
  obtain ⟨h, hh⟩ := C42_returns _ 1 1 1 hg (by norm_num) hr
  obtain ⟨w, e, -, hi⟩ := C89_released_partial _ 1 1 1 hg (by norm_num) (by norm_num) (by norm_num) h hh 0
  exact ⟨h, w, hh, e, hi.2 (.inl ⟨rfl, le_rfl⟩)⟩

/-- C89 is violated by the code: a height map of two columns is made and destroyed; no height map is left, but a
node is. -/
theorem C89_leak_wrong : ∃ w b, HWorld.empty.run [.fromGrid 0 [[10], [10]] 1, .destroy 0] = .ok w ∧
    (∀ u, w.objs u = none) ∧ w.heap.cells b ≠ none ∧ ¬ NoLeakHeight w := by
  obtain ⟨hg, hr, e0, e1⟩ := twoColumns
  obtain ⟨h, hh⟩ := C42_returns _ 2 1 1 hg (by norm_num) hr
  obtain ⟨w, e, hu, hi⟩ := C89_released_partial _ 2 1 1 hg (by norm_num) (by norm_num) (by norm_num) h hh 0
  have : ¬ ∀ b, w.heap.cells b = none := by
    rw [hi]
    rintro (⟨h, -⟩ | h)
    · norm_num at h
    · have := h 0 0
      rw [e0] at this
      norm_num at this
  push Not at this
  obtain ⟨b, hb⟩ := this
  refine ⟨w, b, e, hu, hb, fun hl => ?_⟩
  obtain ⟨v, a, ho, -⟩ := hl b hb
  rw [hu v] at ho
  simp at ho

end Geo
