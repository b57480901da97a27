import Verif.Lemmas.Serialization

/-!
# Properties of serialization (C46–C50, C76)
-/

namespace Geo

open Spec Serialization

/-- A mesh with two points, one of them with NaN and infinite coordinates, and two triangles, one with a bad index.
Used in the cases below. (Device of the proofs.) -/
def sampleMesh : RawMesh := ⟨[⟨0x3FF0000000000000, 0x7FF8000000000001, 0x7FF0000000000000⟩, ⟨1, 2, 3⟩],
  [⟨0, 1, 0⟩, ⟨0xFFFFFFFF, 1, 256⟩]⟩

/-! ## C46 -/

/-- C46: what `Shape::write` writes to a stream with enough room is the tag followed by a body, and `Shape::read`
applied to the body followed by any bytes returns the same mesh, bit by bit, and leaves exactly those bytes. -/
theorem C46_round_trip (m : RawMesh) (hp : m.points.length < 2 ^ 31) (ht : m.tris.length < 2 ^ 31)
    (before rest : List UInt8) :
    ∃ body, m.write ⟨before, none, true⟩ = (true, ⟨before ++ meshName ++ [32, 32, 32, 32] ++ body, none, true⟩) ∧
      body.length = 8 + 24 * m.points.length + 12 * m.tris.length ∧
      RawMesh.read ⟨body ++ rest, true⟩ = (m, ⟨rest, true⟩) := by
  refine ⟨encBody m, ?_, length_encBody m, read_enc m hp ht rest⟩
  rw [write_eq]
  have : RawMesh.tag = meshName ++ [32, 32, 32, 32] := by decide +kernel
  rw [this]
  simp [OStream.write]

/-- C46: the layout of the file: every number at its place. -/
theorem C46_layout (m : RawMesh) (hp : m.points.length < 2 ^ 31) (ht : m.tris.length < 2 ^ 31) :
    let out := (m.write ⟨[], none, true⟩).2.data
    wordAt out 8 = m.points.length ∧ wordAt out (12 + 24 * m.points.length) = m.tris.length ∧
    (∀ i p, m.points[i]? = some p → pointAt out (12 + 24 * i) = p) ∧
    (∀ i t, m.tris[i]? = some t → triAt out (16 + 24 * m.points.length + 12 * i) = t) := by
  intro out
  have hout : out = RawMesh.tag ++ encBody m := by
    show (m.write ⟨[], none, true⟩).2.data = _
    rw [write_eq]; simp [OStream.write]
  have hw : ∀ off init, window out (8 + off) init = window (encBody m) off init := by
    intro off init
    rw [hout]
    refine List.map_congr_left fun i _ => ?_
    simp only [List.getD_eq_getElem?_getD]
    rw [List.getElem?_append_right (by simp [RawMesh.tag]; omega)]
    congr 2
    simp [RawMesh.tag]; omega
  have hword : ∀ off, wordAt out (8 + off) = wordAt (encBody m) off := fun off => by unfold wordAt; rw [hw]
  have hdouble : ∀ off, doubleAt out (8 + off) = doubleAt (encBody m) off := fun off => by unfold doubleAt; rw [hw]
  obtain ⟨w1, w2, h1, h2⟩ := enc_fields m hp ht
  clear_value out
  refine ⟨?_, ?_, ?_, ?_⟩
  · exact (hword 0).trans w1
  · rw [show 12 + 24 * m.points.length = 8 + (4 + 24 * m.points.length) by omega, hword, w2]
  · intro i p hi
    rw [← h1 i p hi]
    unfold pointAt
    rw [show 12 + 24 * i = 8 + (4 + 24 * i) by omega, Nat.add_assoc 8, Nat.add_assoc 8, hdouble, hdouble, hdouble]
  · intro i t hi
    rw [← h2 i t hi]
    unfold triAt
    generalize hj : 8 + 24 * m.points.length + 12 * i = j
    rw [show 16 + 24 * m.points.length + 12 * i = 8 + j by omega, Nat.add_assoc 8, Nat.add_assoc 8, hword, hword, hword]

/-- C46: the bound on the sizes is needed: with 2^31 to 2^32 - 1 points the count is read back as negative, and no
point is read. -/
theorem C46_size_limit (m : RawMesh) (h1 : 2 ^ 31 ≤ m.points.length) (h2 : m.points.length < 2 ^ 32)
    (rest : List UInt8) :
    ((m.write ⟨[], none, true⟩).2.data.drop 8).length = 8 + 24 * m.points.length + 12 * m.tris.length ∧
    (RawMesh.read ⟨(m.write ⟨[], none, true⟩).2.data.drop 8 ++ rest, true⟩).1.points = [] := by
  have hb : (m.write ⟨[], none, true⟩).2.data.drop 8 = encBody m := by
    rw [write_eq]; simp [OStream.write, RawMesh.tag]
  rw [hb]
  refine ⟨length_encBody m, ?_⟩
  rw [read_at]
  have w := wordAt_cut [] (m.points.flatMap encP ++ (leBytes 4 (u32 m.tris.length) ++ m.tris.flatMap encT) ++ rest)
    (u32 m.points.length) 4 le_rfl
  rw [wordAt_take_intact _ le_rfl, count_mod h2, List.length_nil] at w
  have e : encBody m ++ rest = [] ++ (leBytes 4 (u32 m.points.length) ++ (m.points.flatMap encP ++
      (leBytes 4 (u32 m.tris.length) ++ m.tris.flatMap encT) ++ rest)) := by
    simp only [encBody, List.append_assoc, List.nil_append]
  have c : countAt (encBody m ++ rest) 0 = 0 := by
    unfold countAt
    rw [e, w, if_neg (by omega)]
  simp only [c, List.range_zero, List.map_nil]

/-- C46 case: a mesh with NaN and infinite coordinates and a bad index. -/
example : sampleMesh.points.length < 2 ^ 31 ∧ sampleMesh.tris.length < 2 ^ 31 ∧
    (RawMesh.read ⟨(sampleMesh.write ⟨[], none, true⟩).2.data.drop 8 ++ [1, 2, 3], true⟩).1 = sampleMesh := by
  refine ⟨by decide, by decide, ?_⟩
  decide +kernel

/-! ## C47 -/

/-- C47 is violated by the code, as the language has it: deserializing what was serialized reads beyond the buffer, for
every shape and registry, whatever follows. -/
theorem C47_deserialize_wrong (m : RawMesh) (hist : List (List UInt8 × Method)) (rest : List UInt8) :
    deserialize (registered hist) ⟨(serialize m ⟨[], none, true⟩).2.data ++ rest, true⟩ = .error .ub ∧
    fromFile (registered hist) (some (toFile m none)) = .error .ub := by
  have key : ∀ rest, deserialize (registered hist) ⟨(serialize m ⟨[], none, true⟩).2.data ++ rest, true⟩ = .error .ub := by
    intro rest
    unfold deserialize deserializeIn serialize
    rw [write_eq]
    have hs : cstring ((RawMesh.tag.map some ++ (List.replicate 8 (none : Option UInt8)).drop 8) ++ []) = .error .ub := by
      decide +kernel
    have : ((RawMesh.tag ++ encBody m) ++ rest).take 8 = RawMesh.tag := by simp [RawMesh.tag]
    simp only [OStream.write, IStream.read, Bool.not_true, Bool.false_eq_true, if_false, List.nil_append, this]
    rw [show RawMesh.tag.length = 8 from rfl, hs]
    rfl
  refine ⟨key rest, ?_⟩
  have := key []
  rw [List.append_nil] at this
  unfold fromFile fromFileIn openFile toFile
  unfold deserialize at this
  rw [this]
  rfl

/-- C47: as the language has it, `deserialize` never returns a shape, on any input and for any registrations: an input
whose first 8 bytes contain no 0 is read beyond the buffer, and with a 0 the tag is too short to be registered. -/
theorem C47_never (hist : List (List UInt8 × Method)) (input : IStream) :
    (∀ m s, deserialize (registered hist) input ≠ .ok (some m, s)) ∧
    (∀ file m, fromFile (registered hist) file ≠ .ok (some m)) := by
  have key : ∀ input m s, deserialize (registered hist) input ≠ .ok (some m, s) := by
    intro input m s h
    unfold deserialize deserializeIn at h
    generalize hr : input.read 8 = r at h
    obtain ⟨got, input'⟩ := r
    have hlen : got.length ≤ 8 := by
      unfold IStream.read at hr
      split at hr
      · obtain ⟨rfl, -⟩ := Prod.ext_iff.1 hr; simp
      · obtain ⟨rfl, -⟩ := Prod.ext_iff.1 hr
        simp
    simp only [List.append_nil] at h
    cases hc : cstring (got.map some ++ (List.replicate 8 (none : Option UInt8)).drop got.length) with
    | error e => rw [hc] at h; simp [bind, Except.bind] at h
    | ok k =>
      have hk := cstring_short _ _ hc
      rw [hc] at h
      simp only [List.length_append, List.length_map, List.length_drop, List.length_replicate] at hk
      simp only [bind, Except.bind, registered_length hist k (by omega), pure, Except.pure, Except.ok.injEq,
        Prod.mk.injEq] at h
      exact absurd h.1 (by simp)
  refine ⟨key input, fun file m h => ?_⟩
  unfold fromFile fromFileIn at h
  cases hd : deserializeIn (List.replicate 8 none) [] (registered hist) (openFile file) with
  | error e => rw [hd] at h; simp [bind, Except.bind] at h
  | ok r =>
    obtain ⟨o, s⟩ := r
    rw [hd] at h
    simp only [bind, Except.bind, pure, Except.pure, Except.ok.injEq] at h
    subst h
    exact key _ _ _ hd

/-- C47, partial: full statement: the same without assumptions on memory; undefined behaviour, see
`C47_deserialize_wrong`. If the byte after the buffer happens to be 0 and `Shape` is what is registered under the tag,
the same mesh comes back, and the stream is left after it. -/
theorem C47_round_trip_partial (m : RawMesh) (hp : m.points.length < 2 ^ 31) (ht : m.tris.length < 2 ^ 31)
    (reg : Registry) (hreg : reg (meshName ++ [32, 32, 32, 32]) = some RawMesh.read)
    (buf after : List (Option UInt8)) (hbuf : buf.length = 8) (rest : List UInt8) :
    deserializeIn buf (some 0 :: after) reg ⟨(serialize m ⟨[], none, true⟩).2.data ++ rest, true⟩ =
      .ok (some m, ⟨rest, true⟩) ∧
    fromFileIn buf (some 0 :: after) reg (some (toFile m none)) = .ok (some m) := by
  have htag : RawMesh.tag = meshName ++ [32, 32, 32, 32] := by decide +kernel
  have key : ∀ rest, deserializeIn buf (some 0 :: after) reg ⟨(serialize m ⟨[], none, true⟩).2.data ++ rest, true⟩ =
      .ok (some m, ⟨rest, true⟩) := by
    intro rest
    unfold deserializeIn serialize
    rw [write_eq]
    have h8 : ((RawMesh.tag ++ encBody m) ++ rest).take 8 = RawMesh.tag := by simp [RawMesh.tag]
    have h8' : ((RawMesh.tag ++ encBody m) ++ rest).drop 8 = encBody m ++ rest := by simp [RawMesh.tag]
    have hs : cstring (RawMesh.tag.map some ++ (some 0 :: after)) = .ok RawMesh.tag := by
      rw [cstring_end _ (by decide)]
      simp [cstring, Except.bind]
    have hl : 8 ≤ ((RawMesh.tag ++ encBody m) ++ rest).length := by simp [RawMesh.tag]
    simp only [OStream.write, IStream.read, Bool.not_true, Bool.false_eq_true, if_false, List.nil_append, h8, h8', hl,
      decide_true]
    rw [show buf.drop RawMesh.tag.length = [] from List.drop_eq_nil_of_le (by rw [hbuf]; decide), List.append_nil, hs]
    simp only [bind, Except.bind, htag, hreg, read_enc m hp ht rest]
    rfl
  refine ⟨key rest, ?_⟩
  have := key []
  rw [List.append_nil] at this
  unfold fromFileIn openFile toFile
  rw [this]
  rfl

/-- C47: if the byte after the buffer is something else, and a 0 follows later, null is returned for a serialized
shape, whatever is registered. -/
theorem C47_garbage_wrong (m : RawMesh) (hist : List (List UInt8 × Method)) (buf after : List (Option UInt8))
    (hbuf : buf.length = 8) (b : UInt8) (hb : b ≠ 0) (garbage : List UInt8) (hg : ∀ c ∈ garbage, c ≠ 0) :
    fromFileIn buf (some b :: garbage.map some ++ some 0 :: after) (registered hist) (some (toFile m none)) = .ok none := by
  unfold fromFileIn openFile toFile deserializeIn serialize
  rw [write_eq]
  have h8 : (RawMesh.tag ++ encBody m).take 8 = RawMesh.tag := by simp [RawMesh.tag]
  have hs : cstring (RawMesh.tag.map some ++ (some b :: garbage.map some ++ some 0 :: after)) =
      .ok (RawMesh.tag ++ (b :: garbage)) := by
    rw [show RawMesh.tag.map some ++ (some b :: garbage.map some ++ some 0 :: after) =
      (RawMesh.tag ++ (b :: garbage)).map some ++ (some 0 :: after) by simp, cstring_end]
    · simp [cstring, Except.bind]
    · intro c hc
      rw [List.mem_append, List.mem_cons] at hc
      rcases hc with hc | rfl | hc
      · revert c; decide
      · exact hb
      · exact hg c hc
  simp only [OStream.write, IStream.read, Bool.not_true, Bool.false_eq_true, if_false, List.nil_append, h8]
  rw [show buf.drop RawMesh.tag.length = [] from List.drop_eq_nil_of_le (by rw [hbuf]; decide), List.append_nil, hs]
  simp only [bind, Except.bind]
  rw [registered_length hist _ (by simp [RawMesh.tag])]
  rfl

/-- C47: an unregistered tag gives null. -/
theorem C47_unknown (reg : Registry) (tag rest : List UInt8) (htag : tag.length = 8) (h0 : ∀ b ∈ tag, b ≠ 0)
    (hreg : reg tag = none) (buf after : List (Option UInt8)) (hbuf : buf.length = 8) :
    deserializeIn buf (some 0 :: after) reg ⟨tag ++ rest, true⟩ = .ok (none, ⟨rest, true⟩) := by
  unfold deserializeIn
  have h8 : (tag ++ rest).take 8 = tag := by rw [← htag, List.take_left]
  have h8' : (tag ++ rest).drop 8 = rest := by rw [← htag, List.drop_left]
  have hs : cstring (tag.map some ++ (some 0 :: after)) = .ok tag := by
    rw [cstring_end _ h0]
    simp [cstring, Except.bind]
  simp only [IStream.read, Bool.not_true, Bool.false_eq_true, if_false, h8, h8']
  rw [show buf.drop tag.length = [] from List.drop_eq_nil_of_le (by omega), List.append_nil, hs]
  simp only [bind, Except.bind, hreg, pure, Except.pure]
  rw [decide_eq_true (by rw [List.length_append]; omega)]

/-- C47: a file that cannot be opened is not reported but looked at through an uninitialised buffer. -/
theorem C47_missing_file_wrong (reg : Registry) : fromFile reg none = .error .ub := rfl

/-- C47 case: `Shape` registered under `mesh`, other names registered before and after. -/
example (f g : Method) : registered [([65], f), (meshName, RawMesh.read), ([66], g)] (meshName ++ [32, 32, 32, 32]) =
    some RawMesh.read := by
  have h1 : ¬ (meshName ++ [32, 32, 32, 32] = pad [66]) := by decide +kernel
  have h2 : meshName ++ [32, 32, 32, 32] = pad meshName := by decide +kernel
  simp only [registered, List.foldl_cons, List.foldl_nil]
  rw [register, if_neg h1, register, if_pos h2]

/-! ## C48 -/

/-- C48: reading a body cut after any `k` bytes returns, without any report except through the state of the stream, a
mesh with the announced number of points (the low bytes of the number if the cut is within it); the points and
triangles completely before the cut are intact, points completely after it are NaN, triangles completely after it are
three times index 0; and with a cut before the number of triangles there are none. -/
theorem C48_truncated (m : RawMesh) (hp : m.points.length < 2 ^ 31) (ht : m.tris.length < 2 ^ 31) (k : ℕ) :
    let P := m.points.length
    let T := m.tris.length
    let r := RawMesh.read ⟨((m.write ⟨[], none, true⟩).2.data.drop 8).take k, true⟩
    r.1.points.length = (if 4 ≤ k then P else P % 256 ^ k) ∧
    (∀ i, i < P → 4 + 24 * i + 24 ≤ k → r.1.points[i]? = m.points[i]?) ∧
    (∀ i, i < r.1.points.length → k ≤ 4 + 24 * i →
      r.1.points[i]? = some ⟨0x7FF8000000000000, 0x7FF8000000000000, 0x7FF8000000000000⟩) ∧
    r.1.tris.length = (if 8 + 24 * P ≤ k then T else T % 256 ^ (k - (4 + 24 * P))) ∧
    (∀ i, i < T → 8 + 24 * P + 12 * i + 12 ≤ k → r.1.tris[i]? = m.tris[i]?) ∧
    (∀ i, i < r.1.tris.length → k ≤ 8 + 24 * P + 12 * i → r.1.tris[i]? = some ⟨0, 0, 0⟩) ∧
    r.2.good = decide (8 + 24 * P + 12 * T ≤ k) := by
  intro P T r
  have hb : (m.write ⟨[], none, true⟩).2.data.drop 8 = encBody m := by
    rw [write_eq]; simp [OStream.write, RawMesh.tag]
  have hlen := length_encBody m
  obtain ⟨w1, w2, f1, f2⟩ := enc_fields m hp ht
  have hr : r = RawMesh.read ⟨(encBody m).take k, true⟩ := by rw [← hb]
  clear_value r
  subst hr
  have htk : ((encBody m).take k).length = min k (8 + 24 * P + 12 * T) := by rw [List.length_take, hlen]
  -- the counts
  have c1 : countAt ((encBody m).take k) 0 = if 4 ≤ k then P else P % 256 ^ k := by
    unfold countAt
    by_cases h : 4 ≤ k
    · rw [wordAt_take_intact _ (by omega), w1, if_pos hp, if_pos h]
    · have hc := wordAt_cut [] (m.points.flatMap encP ++ (leBytes 4 (u32 m.tris.length) ++ m.tris.flatMap encT))
        (u32 m.points.length) k (by omega)
      have hu : u32 m.points.length = P := Nat.mod_eq_of_lt (lt_trans hp (by norm_num))
      rw [List.length_nil, zero_add, hu] at hc
      have hc' : wordAt ((encBody m).take k) 0 = P % 256 ^ k := by
        rw [← hc]; unfold encBody; rw [hu]; rfl
      rw [hc', if_pos (lt_of_le_of_lt (Nat.mod_le _ _) hp), if_neg h]
  have c2 : countAt ((encBody m).take k) (4 + 24 * countAt ((encBody m).take k) 0) =
      if 8 + 24 * P ≤ k then T else T % 256 ^ (k - (4 + 24 * P)) := by
    rw [c1]
    by_cases h : 4 ≤ k
    · rw [if_pos h]
      by_cases h8 : 8 + 24 * P ≤ k
      · rw [if_pos h8]
        unfold countAt
        rw [wordAt_take_intact _ (by omega), w2, if_pos ht]
      · rw [if_neg h8]
        by_cases h4 : k ≤ 4 + 24 * P
        · rw [show k - (4 + 24 * P) = 0 by omega, pow_zero, Nat.mod_one]
          unfold countAt
          rw [wordAt_beyond _ (by rw [htk]; omega)]
          rfl
        · have hc := wordAt_cut (leBytes 4 (u32 m.points.length) ++ m.points.flatMap encP) (m.tris.flatMap encT)
            (u32 m.tris.length) (k - (4 + 24 * P)) (by omega)
          have hl : (leBytes 4 (u32 m.points.length) ++ m.points.flatMap encP).length = 4 + 24 * P := by
            rw [List.length_append, length_leBytes, length_flatMap_const _ _ length_encP]
          have e2 : encBody m = leBytes 4 (u32 m.points.length) ++ m.points.flatMap encP ++
              (leBytes 4 (u32 m.tris.length) ++ m.tris.flatMap encT) := by simp only [encBody, List.append_assoc]
          have hu : u32 m.tris.length = T := Nat.mod_eq_of_lt (lt_trans ht (by norm_num))
          rw [hl, ← e2, show 4 + 24 * P + (k - (4 + 24 * P)) = k by omega, hu] at hc
          unfold countAt
          rw [hc, if_pos (lt_of_le_of_lt (Nat.mod_le _ _) ht)]
    · rw [if_neg h, if_neg (by omega), show k - (4 + 24 * P) = 0 by omega, pow_zero, Nat.mod_one]
      unfold countAt
      rw [wordAt_beyond _ (by rw [htk]; omega)]
      rfl
  rw [read_at]
  dsimp only
  rw [c2]
  simp only [List.length_map, List.length_range, List.getElem?_map]
  refine ⟨c1, ?_, ?_, trivial, ?_, ?_, ?_⟩
  · intro i hi hk
    rw [c1, if_pos (by omega), List.getElem?_range hi, Option.map_some, pointAt_take_intact _ (by omega)]
    rw [List.getElem?_eq_getElem hi, f1 i _ (List.getElem?_eq_getElem hi)]
  · intro i hi hk
    rw [List.getElem?_range hi, Option.map_some, pointAt_beyond _ (by rw [htk]; omega)]
  · intro i hi hk
    rw [if_pos (by omega), List.getElem?_range hi, Option.map_some, c1, if_pos (by omega),
      triAt_take_intact _ (by omega)]
    rw [List.getElem?_eq_getElem hi, f2 i _ (List.getElem?_eq_getElem hi)]
  · intro i hi hk
    rw [List.getElem?_range hi, Option.map_some, triAt_beyond]
    rw [htk, c1]
    by_cases h : 4 ≤ k
    · rw [if_pos h]; omega
    · rw [if_neg h]; omega
  · unfold streamAt
    dsimp only
    rw [htk, c1]
    refine decide_eq_decide.2 ?_
    by_cases h : 4 ≤ k
    · rw [if_pos h]
      by_cases h8 : 8 + 24 * P ≤ k
      · rw [if_pos h8]; omega
      · rw [if_neg h8]; omega
    · rw [if_neg h, if_neg (by omega)]; omega

/-- C48 case: the sample mesh cut inside the second coordinate of its second point, and inside the number of
triangles. -/
example : (RawMesh.read ⟨((sampleMesh.write ⟨[], none, true⟩).2.data.drop 8).take 37, true⟩).1 =
      ⟨[⟨0x3FF0000000000000, 0x7FF8000000000001, 0x7FF0000000000000⟩, ⟨1, 0x7FF8000000000002, 0x7FF8000000000000⟩], []⟩ ∧
    (RawMesh.read ⟨((sampleMesh.write ⟨[], none, true⟩).2.data.drop 8).take 53, true⟩).1 =
      ⟨sampleMesh.points, [⟨0, 0, 0⟩, ⟨0, 0, 0⟩]⟩ := by
  decide +kernel

/-! ## C49 -/

/-- C49: reading any bytes terminates and returns the announced numbers of points and triangles (none if negative),
each with the numbers found at its place, NaN or 0 beyond the end; the bytes after them are left. -/
theorem C49_any_bytes (bytes : List UInt8) :
    let P := countAt bytes 0
    let T := countAt bytes (4 + 24 * P)
    let r := RawMesh.read ⟨bytes, true⟩
    r.1.points.length = P ∧ r.1.tris.length = T ∧
    (∀ i < P, r.1.points[i]? = some (pointAt bytes (4 + 24 * i))) ∧
    (∀ i < T, r.1.tris[i]? = some (triAt bytes (8 + 24 * P + 12 * i))) ∧
    r.2.data = bytes.drop (8 + 24 * P + 12 * T) ∧ r.2.good = decide (8 + 24 * P + 12 * T ≤ bytes.length) := by
  intro P T r
  have hr : r = _ := read_at bytes
  rw [hr]
  refine ⟨by simp [P], by simp [T, P], ?_, ?_, rfl, rfl⟩
  · intro i hi
    simp only [List.getElem?_map]
    rw [List.getElem?_range hi, Option.map_some]
  · intro i hi
    simp only [List.getElem?_map]
    rw [List.getElem?_range hi, Option.map_some]

/-- C49: from a stream that has failed before, an empty mesh is read. -/
theorem C49_failed_stream (data : List UInt8) : RawMesh.read ⟨data, false⟩ = (⟨[], []⟩, ⟨data, false⟩) := by
  have h : (IStream.mk data false).field zeroBytes = (0, ⟨data, false⟩) := rfl
  rw [read_step h rfl h]
  rfl

/-- C49: indices are not checked: any index in the file ends up in a mesh, even without points. -/
theorem C49_unchecked (i : UInt32) : ∃ bytes, (RawMesh.read ⟨bytes, true⟩).1 = ⟨[], [⟨i, i, i⟩]⟩ := by
  have := read_enc ⟨[], [⟨i, i, i⟩]⟩ (by simp) (by simp) []
  rw [List.append_nil] at this
  exact ⟨_, by rw [this]⟩

/-- C49 case: a negative number of points, one triangle, and an incomplete index. -/
example : (RawMesh.read ⟨[0, 0, 0, 0x80, 1, 0, 0, 0, 7, 0, 0, 0, 8, 1], true⟩).1 = ⟨[], [⟨7, 264, 0⟩]⟩ := by
  decide +kernel

/-! ## C50 -/

/-- C50: after any registrations, looking up a tag gives the last method registered under a name that pads or
truncates to it, and nothing if there is none. -/
theorem C50_last_registration (hist : List (List UInt8 × Method)) (key : List UInt8) :
    registered hist key = ((hist.reverse.find? fun h => tagOf h.1 = key).map Prod.snd) := by
  induction hist using List.reverseRecOn with
  | nil => rfl
  | append_singleton l x ih =>
    rw [registered_snoc, register, List.reverse_append, List.reverse_singleton, List.singleton_append, List.find?_cons, pad_eq]
    by_cases h : key = tagOf x.1
    · rw [if_pos h, decide_eq_true h.symm]; rfl
    · rw [if_neg h, ih, decide_eq_false (fun h' => h h'.symm)]

/-- C50 case: names of 9 letters collide with their first 8, and shorter ones with trailing spaces. -/
example (f g h : Method) : registered [([65, 65, 65, 65, 65, 65, 65, 65, 66], f), ([65], g), ([65, 65, 65, 65, 65, 65, 65, 65, 67], h)]
      [65, 65, 65, 65, 65, 65, 65, 65] = some h ∧ tagOf [65] = tagOf [65, 32] := by
  refine ⟨?_, by decide +kernel⟩
  rw [C50_last_registration]
  rfl

/-! ## C76 -/

/-- C76 is violated by the code: writing to a full device returns true. -/
theorem C76_report_wrong (m : RawMesh) : (serialize m ⟨[], some 0, true⟩) = (true, ⟨[], some 0, false⟩) := by
  unfold serialize
  rw [write_eq]
  simp [OStream.write, RawMesh.tag]

/-- C76, partial: full statement: true is returned only if everything was written; false, see `C76_report_wrong`.
True is always returned, and what is on the device is as much of the complete output as there is room for. -/
theorem C76_report_partial (m : RawMesh) (room : ℕ) :
    let full := (serialize m ⟨[], none, true⟩).2.data
    (serialize m ⟨[], some room, true⟩).1 = true ∧ (serialize m ⟨[], some room, true⟩).2.data = full.take room ∧
    ((serialize m ⟨[], some room, true⟩).2.good = true ↔ full.length ≤ room) := by
  unfold serialize
  rw [write_eq, write_eq]
  dsimp only
  generalize RawMesh.tag ++ encBody m = out
  simp only [OStream.write, Bool.not_true, Bool.false_eq_true, if_false, List.nil_append, true_and]
  split
  · rename_i h
    exact ⟨by rw [List.take_of_length_le h], by simp [h]⟩
  · rename_i h
    exact ⟨rfl, by simp [h]⟩

/-- C76 case: room for 20 of 88 bytes. -/
example : (serialize sampleMesh ⟨[], some 20, true⟩).2.data.length = 20 ∧
    (serialize sampleMesh ⟨[], none, true⟩).2.data.length = 88 := by
  decide +kernel

end Geo
