import Verif.Model.Ownership

/-!
# What the pointers of octrees and height maps should spell
-/

namespace Geo
namespace Spec

/-- A tree of nodes with up to `k` children. (Specification.) -/
inductive PTree (D : Type) (k : ℕ) where
  | null
  | node (data : D) (children : Fin k → PTree D k)

/-- The nodes of an octree named `v`. (Specification.) -/
noncomputable def octTree (v : ℕ) : OctNode → PTree OctData 8
  | .null => .null
  | .node size occupied children => .node ⟨size, size / 2, occupied, v⟩ fun i => octTree v (children i)

/-- The nodes of a height map. (Specification.) -/
def heightTree : HNode → PTree HData 4
  | .null => .null
  | .node box occupied children => .node ⟨box, occupied⟩ fun i => heightTree (children i)

/-- Following the pointer `p` one finds the tree, all of its nodes alive. (Specification.) -/
def Spells {D : Type} {k : ℕ} (cells : ℕ → Option (Cell D k)) : Option ℕ → PTree D k → Prop
  | p, .null => p = none
  | p, .node d ch => ∃ a pt, p = some a ∧ cells a = some ⟨d, pt⟩ ∧ ∀ i, Spells cells (pt i) (ch i)

/-- One comes from node `a` to node `b` along pointers. (Specification.) -/
inductive Reach {D : Type} {k : ℕ} (cells : ℕ → Option (Cell D k)) (a : ℕ) : ℕ → Prop where
  | start : Reach cells a a
  | next {b b' : ℕ} {c : Cell D k} {i : Fin k} : Reach cells a b → cells b = some c → c.children i = some b' →
      Reach cells a b'

/-- The octree named `v`, if it exists. (Specification.) -/
def known {α : Type} (s : ℕ → Option α) (v : ℕ) : Exec α :=
  match s v with
  | some t => .ok t
  | none => .error .ub

/-- What a statement means when every octree is a value of its own: the methods of `Verif.Model.Octree` on the
octree named, all others as before. (Specification.) -/
noncomputable def valueStep (s : ℕ → Option Octree) : OctOp → Exec (ℕ → Option Octree)
  | .create v size resolution => if (s v).isSome then .error .ub else do
      let t ← Octree.new size resolution
      return Function.update s v (some t)
  | .copy v u => if (s v).isSome then .error .ub else do
      let t ← known s u
      return Function.update s v (some t.copy)
  | .destroy v => do
      let _ ← known s v
      return Function.update s v none
  | .clear v => do
      let t ← known s v
      return Function.update s v (some t.clear)
  | .add v p => do
      let t ← known s v
      let t ← t.add p
      return Function.update s v (some t)
  | .raytrace v r t0 t1 => do
      let t ← known s v
      let t ← t.raytrace r t0 t1
      return Function.update s v (some t)
  | .setResolution v resolution => do
      let t ← known s v
      let r ← t.setResolution resolution
      return Function.update s v (some r.1)
  | .assign v u => do
      let _ ← known s v
      let t ← known s u
      return Function.update s v (some t)

/-- A program on values. (Specification.) -/
noncomputable def valueRun (s : ℕ → Option Octree) : List OctOp → Exec (ℕ → Option Octree)
  | [] => .ok s
  | o :: os => do let s ← valueStep s o; valueRun s os

/-- The objects of the program hold the values, in nodes that no other object uses. (Specification.) -/
def Holds (s : ℕ → Option Octree) (w : World) : Prop :=
  (∀ v, s v = none → w.objs v = none) ∧
  (∀ v t, s v = some t → ∃ o, w.objs v = some o ∧ o.resolution = t.resolution ∧ o.offset = t.offset ∧
    o.max = t.max ∧ o.size = t.size ∧ Spells w.heap.cells (some o.root) (octTree v t.root)) ∧
  ∀ u v o o' b, w.objs u = some o → w.objs v = some o' → Reach w.heap.cells o.root b →
    Reach w.heap.cells o'.root b → u = v

/-- Every living node belongs to an object. (Specification.) -/
def NoLeak (w : World) : Prop :=
  ∀ b, w.heap.cells b ≠ none → ∃ v o, w.objs v = some o ∧ Reach w.heap.cells o.root b

/-- What a statement means when every height map is a value of its own. (Specification.) -/
noncomputable def heightStep (s : ℕ → Option HNode) : HOp → Exec (ℕ → Option HNode)
  | .create v => if (s v).isSome then .error .ub else .ok (Function.update s v (some .null))
  | .fromGrid v grid resolution => if (s v).isSome then .error .ub else do
      let m ← HeightMap.fromGrid grid resolution
      return Function.update s v (some m.root)
  | .copy v u => if (s v).isSome then .error .ub else do
      let t ← known s u
      return Function.update s v (some t)
  | .destroy v => do
      let _ ← known s v
      return Function.update s v none
  | .assign v u => do
      let _ ← known s v
      let t ← known s u
      return Function.update s v (some t)

/-- A program on values. (Specification.) -/
noncomputable def heightRun (s : ℕ → Option HNode) : List HOp → Exec (ℕ → Option HNode)
  | [] => .ok s
  | o :: os => do let s ← heightStep s o; heightRun s os

/-- The height maps of the program hold the values, in nodes that no other height map uses. (Specification.) -/
def HoldsHeight (s : ℕ → Option HNode) (w : HWorld) : Prop :=
  (∀ v, s v = none → w.objs v = none) ∧
  (∀ v t, s v = some t → ∃ o, w.objs v = some o ∧ Spells w.heap.cells o (heightTree t)) ∧
  ∀ u v a a' b, w.objs u = some (some a) → w.objs v = some (some a') → Reach w.heap.cells a b →
    Reach w.heap.cells a' b → u = v

/-- Every living node belongs to a height map. (Specification.) -/
def NoLeakHeight (w : HWorld) : Prop :=
  ∀ b, w.heap.cells b ≠ none → ∃ v a, w.objs v = some (some a) ∧ Reach w.heap.cells a b

end Spec
end Geo
