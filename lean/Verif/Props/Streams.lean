import Verif.Lemmas.Serialization
import Verif.Spec.Streams

/-!
# Property theorems C113: several meshes in one stream
-/

namespace Geo

open Spec Serialization

/-- C113: meshes written one after another are read back one after another, and what follows is left. -/
theorem C113_read (ms : List RawMesh) (hm : ∀ m ∈ ms, Fits m) (before rest : List UInt8) :
    ∃ out, writeAll ms ⟨before, none, true⟩ = ⟨before ++ out, none, true⟩ ∧
      readAll ms.length ⟨out ++ rest, true⟩ = (ms, ⟨rest, true⟩) := by
  induction ms generalizing before with
  | nil => exact ⟨[], by simp [writeAll], rfl⟩
  | cons m ms ih =>
    obtain ⟨out, h1, h2⟩ := ih (fun x hx => hm x (List.mem_cons_of_mem _ hx)) (before ++ (RawMesh.tag ++ encBody m))
    refine ⟨(RawMesh.tag ++ encBody m) ++ out, ?_, ?_⟩
    · unfold writeAll at h1 ⊢
      rw [List.foldl_cons, write_eq]
      simp only [OStream.write, Bool.not_true, Bool.false_eq_true, if_false]
      rw [h1, List.append_assoc]
    · have h8 : (RawMesh.tag ++ encBody m ++ out ++ rest).drop 8 = encBody m ++ (out ++ rest) := by
        simp [RawMesh.tag]
      have hl : 8 ≤ (RawMesh.tag ++ encBody m ++ out ++ rest).length := by simp [RawMesh.tag]
      have hr := read_enc m (hm m List.mem_cons_self).1 (hm m List.mem_cons_self).2 (out ++ rest)
      have e : ((⟨RawMesh.tag ++ encBody m ++ out ++ rest, true⟩ : IStream).read 8).2 = ⟨encBody m ++ (out ++ rest), true⟩ := by
        simp only [IStream.read, Bool.not_true, Bool.false_eq_true, if_false, h8, hl, decide_true]
      rw [List.length_cons, readAll, e, hr]
      simp only [h2]

/-- C113: two meshes whose bytes, each followed by something, are the same, are the same, and so is what follows: no mesh is
written as the beginning of another. -/
theorem C113_prefix (m m' : RawMesh) (hm : Fits m) (hm' : Fits m') (rest rest' : List UInt8)
    (h : (m.write ⟨[], none, true⟩).2.data ++ rest = (m'.write ⟨[], none, true⟩).2.data ++ rest') : m = m' ∧ rest = rest' := by
  rw [write_eq, write_eq] at h
  simp only [OStream.write, Bool.not_true, Bool.false_eq_true, if_false, List.nil_append, List.append_assoc,
    List.append_cancel_left_eq] at h
  have e := read_enc m hm.1 hm.2 rest
  rw [h, read_enc m' hm'.1 hm'.2 rest'] at e
  simp only [Prod.mk.injEq, IStream.mk.injEq, and_true] at e
  exact ⟨e.1.symm, e.2.symm⟩

/-- C113: the bytes of a list of meshes determine the list, also its length. -/
theorem C113_unique (ms ms' : List RawMesh) (hm : ∀ m ∈ ms, Fits m) (hm' : ∀ m ∈ ms', Fits m) (before : List UInt8)
    (h : writeAll ms ⟨before, none, true⟩ = writeAll ms' ⟨before, none, true⟩) : ms = ms' := by
  have grow : ∀ (l : List RawMesh) (b : List UInt8), ∃ t, (writeAll l ⟨b, none, true⟩).data = b ++ t := by
    intro l
    induction l with
    | nil => exact fun b => ⟨[], by simp [writeAll]⟩
    | cons m l ih =>
      intro b
      obtain ⟨t, ht⟩ := ih (b ++ (RawMesh.tag ++ encBody m))
      refine ⟨RawMesh.tag ++ encBody m ++ t, ?_⟩
      unfold writeAll at ht ⊢
      rw [List.foldl_cons, write_eq]
      simp only [OStream.write, Bool.not_true, Bool.false_eq_true, if_false]
      rw [ht]
      simp
  have cons : ∀ (m : RawMesh) (l : List RawMesh) (b : List UInt8), writeAll (m :: l) ⟨b, none, true⟩ =
      writeAll l ⟨b ++ (m.write ⟨[], none, true⟩).2.data, none, true⟩ := by
    intro m l b
    unfold writeAll
    rw [List.foldl_cons, write_eq, write_eq]
    simp [OStream.write]
  have ne : ∀ (m : RawMesh) (l : List RawMesh) (b : List UInt8), writeAll (m :: l) ⟨b, none, true⟩ ≠ ⟨b, none, true⟩ := by
    intro m l b hh
    rw [cons] at hh
    obtain ⟨t, ht⟩ := grow l (b ++ (m.write ⟨[], none, true⟩).2.data)
    rw [hh, write_eq] at ht
    have := congrArg List.length ht
    simp [OStream.write, RawMesh.tag] at this
  induction ms generalizing ms' before with
  | nil =>
    rcases ms' with _ | ⟨m', ms'⟩
    · rfl
    · exact absurd h.symm (ne m' ms' before)
  | cons m ms ih =>
    rcases ms' with _ | ⟨m', ms'⟩
    · exact absurd h (ne m ms before)
    · rw [cons, cons] at h
      obtain ⟨t, ht⟩ := grow ms (before ++ (m.write ⟨[], none, true⟩).2.data)
      obtain ⟨t', ht'⟩ := grow ms' (before ++ (m'.write ⟨[], none, true⟩).2.data)
      have hd := congrArg OStream.data h
      rw [ht, ht', List.append_assoc, List.append_assoc, List.append_cancel_left_eq] at hd
      obtain ⟨rfl, -⟩ := C113_prefix m m' (hm m List.mem_cons_self) (hm' m' List.mem_cons_self) t t' hd
      rw [ih ms' (fun x hx => hm x (List.mem_cons_of_mem _ hx)) (fun x hx => hm' x (List.mem_cons_of_mem _ hx)) _ h]

/-- C113 case: two meshes, one with a point and a triangle of bad indices, one empty. -/
example : ∀ m ∈ [(⟨[⟨1, 2, 0x7FF8000000000001⟩], [⟨0, 7, 256⟩]⟩ : RawMesh), ⟨[], []⟩], Fits m := by
  simp [Fits]

end Geo
