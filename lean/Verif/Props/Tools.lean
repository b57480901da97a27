import Verif.Lemmas.Tools
import Verif.Props.HeightMap
import Verif.Props.Export
import Verif.Props.Serialization
import Verif.Props.Mesh

/-!
# Properties of the tools (C94-C97)
-/

namespace Geo

open Spec Tools

/-! ## C94 -/

/-- C94: `height_image_to_file` uses the parameters that are given, for every number of them the usage message allows. -/
theorem C94_file (atof : List Char → ℝ) (prog img out : List Char) {params : List (List Char)} {o : Options}
    (h : Meant atof params o) : fileOptions atof (prog :: img :: out :: params) = .ok (some o) := by
  cases h <;> rfl

/-- C94 case: resolution, block height and origin. -/
example (atof : List Char → ℝ) : Meant atof ["0.1".toList, "2".toList, "-1".toList, "3".toList]
    ⟨atof "0.1".toList, atof "2".toList, atof "-1".toList, atof "3".toList⟩ := .origin _ _ _ _

/-- C94 is violated by `height_image_to_shape`: a resolution is ignored if it is the last argument, a block height likewise,
and so is an origin. -/
theorem C94_shape_wrong (atof : List Char → ℝ) (prog img a b x y : List Char) :
    shapeOptions atof [prog, img, a] = .ok (some ⟨0.2, 1, 0, 0⟩) ∧
    shapeOptions atof [prog, img, a, b] = .ok (some ⟨atof a, 1, 0, 0⟩) ∧
    shapeOptions atof [prog, img, a, b, x, y] = .ok (some ⟨atof a, atof b, 0, 0⟩) :=
  ⟨rfl, rfl, rfl⟩

/-- The witness: with 0.5 as resolution the program works with 0.2. -/
example : ∃ atof : List Char → ℝ, ∃ a o o', Meant atof [a] o ∧ shapeOptions atof ["tool".toList, "a.png".toList, a] = .ok (some o') ∧
    o.resolution = 0.5 ∧ o'.resolution = 0.2 :=
  ⟨fun _ => 0.5, "0.5".toList, _, _, .resolution _, rfl, rfl, rfl⟩

/-- C94, partial: full statement: `shapeOptions atof (prog :: img :: params) = .ok (some o)`; false, see `C94_shape_wrong`. With
one more argument at the end, whatever it is, the parameters are used. -/
theorem C94_shape_partial (atof : List Char → ℝ) (prog img extra : List Char) {params : List (List Char)} {o : Options}
    (h : Meant atof params o) : shapeOptions atof (prog :: img :: params ++ [extra]) = .ok (some o) := by
  cases h <;> rfl

/-- C94: an origin without its second coordinate is no form of the usage messages; both programs then work with the origin 0. -/
theorem C94_lone (atof : List Char → ℝ) (prog img out a b x : List Char) :
    fileOptions atof [prog, img, out, a, b, x] = .ok (some ⟨atof a, atof b, 0, 0⟩) ∧
    shapeOptions atof [prog, img, a, b, x] = .ok (some ⟨atof a, atof b, 0, 0⟩) :=
  ⟨rfl, rfl⟩

/-- C94: both programs refuse too few and too many arguments, and no list of arguments leads to a fault. -/
theorem C94_total (atof : List Char → ℝ) (argv : List (List Char)) :
    (shapeOptions atof argv = .ok none ↔ argv.length < 2 ∨ 7 < argv.length) ∧ (∃ r, shapeOptions atof argv = .ok r) ∧
    (fileOptions atof argv = .ok none ↔ argv.length < 3 ∨ 7 < argv.length) ∧ (∃ r, fileOptions atof argv = .ok r) := by
  match argv with
  | [] | [_] | [_, _] | [_, _, _] | [_, _, _, _] | [_, _, _, _, _] | [_, _, _, _, _, _] | [_, _, _, _, _, _, _] =>
    refine ⟨?_, ⟨_, rfl⟩, ?_, ⟨_, rfl⟩⟩ <;>
    · simp [shapeOptions, fileOptions, vget, bind, Except.bind, pure, Except.pure]
  | _ :: _ :: _ :: _ :: _ :: _ :: _ :: _ :: l =>
    refine ⟨?_, ⟨none, ?_⟩, ?_, ⟨none, ?_⟩⟩
    all_goals simp [shapeOptions, fileOptions, pure, Except.pure]

/-! ## C95 -/

/-- C95: the shape made of a picture is the height map of the picture moved to the origin given; no fault occurs. -/
theorem C95_shape (img : GreyImage) (o : Options) (hr : PictureInRange img o) :
    ∃ grid h s, Pictures img o.blockHeight grid ∧ HeightMap.fromGrid grid o.resolution = .ok h ∧
      imageShape img o = .ok s ∧ s.mesh.tris = h.mesh.tris ∧
      s.mesh.points = h.mesh.points.map (fun p => ⟨p.x + o.originX, p.y + o.originY, p.z⟩) := by
  obtain ⟨grid, g1, g2⟩ := imageGrid_ok img o.blockHeight
  obtain ⟨h, hh⟩ := C42_returns grid _ _ o.resolution g2.1 hr.2.1 (Tools.inRange hr g2)
  refine ⟨grid, h, Shape.new.setMesh (h.mesh.getTransformed (Transform3.ofXYZRPY o.originX o.originY 0 0 0 0)), g2, hh, ?_, rfl, ?_⟩
  · unfold imageShape
    rw [g1]
    simp only [bind, Except.bind, hh]
    rfl
  · show (h.mesh.points.map _) = _
    exact List.map_congr_left fun p _ => shift_apply _ _ p

/-- C95: for a positive resolution and a block height of more than 2.55e-8 the surface is that of the columns of the picture,
moved to the origin: tops over all columns of positive height, and one wall for every step between neighbouring
columns (see C74 for the vocabulary). -/
theorem C95_surface (img : GreyImage) (o : Options) (hr : PictureInRange img o) (hres : 0 < o.resolution)
    (hb : 2.55e-8 < o.blockHeight) :
    ∃ (grid : List (List ℝ)) (s : Shape) (tops wallsX wallsY : List Face) (S : List (Vec3 × Vec3 × Vec3)),
      Pictures img o.blockHeight grid ∧ imageShape img o = .ok s ∧
      (∀ f ∈ tops, GoodTop grid img.cols img.rows f) ∧ (∀ x y, 0 < height grid x y → ∃ f ∈ tops, f.Covers x y) ∧
      WallsX grid wallsX ∧ WallsY grid wallsY ∧
      List.Forall₂ (fun c c' => SameCell3 c.1 c'.1 ∧ SameCell3 c.2.1 c'.2.1 ∧ SameCell3 c.2.2 c'.2.2)
        ((tops ++ wallsX ++ wallsY).flatMap (Face.tris o.resolution)) S ∧
      soup s.mesh.points s.mesh.tris = some (S.map fun t =>
        (⟨t.1.x + o.originX, t.1.y + o.originY, t.1.z⟩, ⟨t.2.1.x + o.originX, t.2.1.y + o.originY, t.2.1.z⟩,
          ⟨t.2.2.x + o.originX, t.2.2.y + o.originY, t.2.2.z⟩)) := by
  obtain ⟨grid, h, s, g, hh, e1, e2, e3⟩ := C95_shape img o hr
  obtain ⟨h', tops, wx, wy, S, k1, k2, k3, k4, k5, k6, k7, k8, k9, -⟩ :=
    C74_walls grid _ _ o.resolution g.1 hr.2.1 (Tools.inRange hr g) (Tools.separated hb g) hres
  rw [hh, Except.ok.injEq] at k1
  subst k1
  refine ⟨grid, s, tops, wx, wy, S, g, e1, k2, k3, k5, k7, k9, ?_⟩
  have := (C14_transform h.mesh Transform3.identity Transform3.identity
    (Transform3.ofXYZRPY o.originX o.originY 0 0 0 0)).2.1 S k8
  simp only [shift_apply] at this
  rw [← this, e2, e3]
  have e : (Transform3.ofXYZRPY o.originX o.originY 0 0 0 0).apply = fun p => ⟨p.x + o.originX, p.y + o.originY, p.z⟩ :=
    funext fun p => shift_apply _ _ p
  simp only [Mesh.getTransformed, e]

/-- C95 case: a picture of one black pixel above a white one, resolution 1/2. -/
example : PictureInRange ⟨2, 1, fun y _ => if y = 0 then 0 else 255⟩ ⟨0.5, 1, 3, 4⟩ := by
  refine ⟨by norm_num, by norm_num, by norm_num, ?_, ?_, ?_⟩ <;> norm_num [abs_of_pos]

/-! ## C96 -/

/-- C96 is violated by the code: on a full device nothing is written and the exit status is 0; a failing exporter does not change
the exit status either, and an output name of less than three characters ends the program with an exception. -/
theorem C96_exit_wrong (atof : List Char → ℝ) (imread : List Char → Option GreyImage) (bits : ℝ → UInt64) (narrow : ℝ → ℝ)
    (prog name : List Char) (img : GreyImage) (hi : imread name = some img) (hr : PictureInRange img ⟨0.2, 1, 0, 0⟩) :
    imageToShape atof imread bits (some 0) [prog, name] = .ok (0, some (name ++ ".geo".toList, [])) ∧
    (∀ stem : List Char, ∀ a b c : Char, ∃ call,
      imageToFile atof imread (fun _ => false) narrow [prog, name, stem ++ [a, b, c]] = .ok (0, some (call, false))) ∧
    (∀ exporter, ∀ out : List Char, out.length < 3 →
      imageToFile atof imread exporter narrow [prog, name, out] = .error .exception) := by
  obtain ⟨grid, h, s, -, -, e1, -, -⟩ := C95_shape img ⟨0.2, 1, 0, 0⟩ hr
  have o1 : shapeOptions atof [prog, name] = .ok (some ⟨0.2, 1, 0, 0⟩) := rfl
  have o2 : ∀ out, fileOptions atof [prog, name, out] = .ok (some ⟨0.2, 1, 0, 0⟩) := fun _ => rfl
  refine ⟨?_, ?_, ?_⟩
  · unfold imageToShape
    rw [o1]
    simp only [bind, Except.bind, show vget [prog, name] 1 = .ok name from rfl, hi, e1]
    have := (C76_report_wrong (rawMesh bits s.getMesh))
    unfold Serialization.toFile
    rw [this]
    rfl
  · intro stem a b c
    obtain ⟨call, hc, -⟩ := C71_suffix narrow stem a b c s
    refine ⟨call, ?_⟩
    unfold imageToFile
    rw [o2]
    simp only [bind, Except.bind, show ∀ out, vget [prog, name, out] 1 = .ok name from fun _ => rfl,
      show ∀ out, vget [prog, name, out] 2 = .ok out from fun _ => rfl, hi, e1, hc]
    rfl
  · intro exporter out ho
    unfold imageToFile
    rw [o2]
    simp only [bind, Except.bind, show ∀ out, vget [prog, name, out] 1 = .ok name from fun _ => rfl,
      show ∀ out, vget [prog, name, out] 2 = .ok out from fun _ => rfl, hi, e1, C71_short narrow s ho]

/-- C96, partial: full statement: an exit status of 0 means that the file is complete; false, see `C96_exit_wrong`. If the
program ends without a fault, the exit status is 1 and nothing was written, or it is 0, a picture was read and turned into a
shape, and as much of the encoding of that shape is in the file as there is room for, or the exporter was called for
the shape, with whatever result. -/
theorem C96_exit_partial (atof : List Char → ℝ) (imread : List Char → Option GreyImage) (bits : ℝ → UInt64) (narrow : ℝ → ℝ)
    (exporter : Export.Call → Bool) (room : Option ℕ) (argv : List (List Char)) :
    (∀ code w, imageToShape atof imread bits room argv = .ok (code, w) →
      (code = 1 ∧ w = none) ∨
      code = 0 ∧ ∃ o name img s bytes, shapeOptions atof argv = .ok (some o) ∧ argv[1]? = some name ∧ imread name = some img ∧
        imageShape img o = .ok s ∧ w = some (name ++ ".geo".toList, bytes) ∧
        bytes = match room with
          | none => (Serialization.serialize (rawMesh bits s.mesh) ⟨[], none, true⟩).2.data
          | some r => (Serialization.serialize (rawMesh bits s.mesh) ⟨[], none, true⟩).2.data.take r) ∧
    (∀ code w, imageToFile atof imread exporter narrow argv = .ok (code, w) →
      (code = 1 ∧ w = none) ∨
      code = 0 ∧ ∃ o name out img s call, fileOptions atof argv = .ok (some o) ∧ argv[1]? = some name ∧ argv[2]? = some out ∧
        imread name = some img ∧ imageShape img o = .ok s ∧ Export.writeCall narrow out s [] = .ok call ∧
        w = some (call, exporter call)) := by
  have vg : ∀ {i : ℕ} {a : List Char}, vget argv i = .ok a → argv[i]? = some a := by
    intro i a h
    unfold vget at h
    cases hi : argv[i]? with
    | none => rw [hi] at h; simp at h
    | some b => rw [hi] at h; simpa using h
  constructor
  · intro code w h
    unfold imageToShape at h
    cases ho : shapeOptions atof argv with
    | error e => rw [ho] at h; simp [bind, Except.bind] at h
    | ok o =>
      rw [ho] at h
      cases o with
      | none =>
        simp only [bind, Except.bind, pure, Except.pure, Except.ok.injEq, Prod.mk.injEq] at h
        exact .inl ⟨h.1.symm, h.2.symm⟩
      | some o =>
        simp only [bind, Except.bind] at h
        cases hn : vget argv 1 with
        | error e => rw [hn] at h; simp at h
        | ok name =>
          rw [hn] at h
          simp only at h
          cases hi : imread name with
          | none =>
            rw [hi] at h
            simp only [pure, Except.pure, Except.ok.injEq, Prod.mk.injEq] at h
            exact .inl ⟨h.1.symm, h.2.symm⟩
          | some img =>
            rw [hi] at h
            simp only at h
            cases hs : imageShape img o with
            | error e => rw [hs] at h; simp at h
            | ok s =>
              rw [hs] at h
              simp only [pure, Except.pure, Except.ok.injEq, Prod.mk.injEq] at h
              refine .inr ⟨h.1.symm, o, name, img, s, _, rfl, vg hn, hi, hs, h.2.symm, ?_⟩
              cases room with
              | none => rfl
              | some r => exact (C76_report_partial _ r).2.1
  · intro code w h
    unfold imageToFile at h
    cases ho : fileOptions atof argv with
    | error e => rw [ho] at h; simp [bind, Except.bind] at h
    | ok o =>
      rw [ho] at h
      cases o with
      | none =>
        simp only [bind, Except.bind, pure, Except.pure, Except.ok.injEq, Prod.mk.injEq] at h
        exact .inl ⟨h.1.symm, h.2.symm⟩
      | some o =>
        simp only [bind, Except.bind] at h
        cases hn : vget argv 1 with
        | error e => rw [hn] at h; simp at h
        | ok name =>
          rw [hn] at h
          simp only at h
          cases hn2 : vget argv 2 with
          | error e => rw [hn2] at h; simp at h
          | ok out =>
            rw [hn2] at h
            simp only at h
            cases hi : imread name with
            | none =>
              rw [hi] at h
              simp only [pure, Except.pure, Except.ok.injEq, Prod.mk.injEq] at h
              exact .inl ⟨h.1.symm, h.2.symm⟩
            | some img =>
              rw [hi] at h
              simp only at h
              cases hs : imageShape img o with
              | error e => rw [hs] at h; simp at h
              | ok s =>
                rw [hs] at h
                simp only at h
                cases hc : Export.writeCall narrow out s [] with
                | error e => rw [hc] at h; simp at h
                | ok call =>
                  rw [hc] at h
                  simp only [pure, Except.pure, Except.ok.injEq, Prod.mk.injEq] at h
                  exact .inr ⟨h.1.symm, o, name, out, img, s, call, rfl, vg hn, vg hn2, hi, hs, hc, h.2.symm⟩

/-- C96 case: the picture of C95, the options the tools use without further arguments. -/
example : PictureInRange ⟨2, 1, fun y _ => if y = 0 then 0 else 255⟩ ⟨0.2, 1, 0, 0⟩ := by
  refine ⟨by norm_num, by norm_num, by norm_num, ?_, ?_, ?_⟩ <;> norm_num [abs_of_pos]

/-! ## C97 -/

/-- C97: without a key `showKinect` draws 126 frames, so that no direction of a full turn is further than 0.05 from the frame
before it; the size of the canvas is rounded down. -/
theorem C97_frames (shape : Shape) {w h : ℝ} (hw : 0 ≤ w) (hw' : w < 2 ^ 32) (hh : 0 ≤ h) (hh' : h < 2 ^ 32) (key : ℕ → Bool)
    (hk : ∀ i < 126, key i = false) :
    ∃ poses : List Transform3, showKinect shape w h key = .ok (⌊w⌋₊, ⌊h⌋₊, poses) ∧ poses.length = 126 ∧
      (∀ P ∈ poses, P.t = ⟨0, 0, shape.getMaxRadius / 2⟩) ∧
      ∀ a : ℝ, 0 ≤ a → a ≤ 2 * Real.pi → ∃ b, b ≤ a ∧ a < b + 0.05 ∧
        ∃ P ∈ poses, P.R = Mat3.setRPY (-1.57) b 0 := by
  have hl := kinect_all (shape.getMaxRadius / 2) key hk
  refine ⟨(List.range' 0 126).map (framePose (shape.getMaxRadius / 2)), ?_, by simp, ?_, ?_⟩
  · unfold showKinect
    simp only [castUInt_ok hw hw', castUInt_ok hh hh']
    rw [
      unbounded_eq (fun n => (hl n 0 (by norm_num)).1) ((hl 127 0 (by norm_num)).2 (by norm_num))]
    rfl
  · intro P hP
    obtain ⟨i, -, rfl⟩ := List.mem_map.1 hP
    rfl
  · intro a h0 ha
    have hpi := Real.pi_lt_d2
    have hf := Nat.floor_le (show 0 ≤ a / 0.05 by positivity)
    have hf' := Nat.lt_floor_add_one (a / 0.05)
    rw [le_div_iff₀ (by norm_num)] at hf
    rw [div_lt_iff₀ (by norm_num)] at hf'
    refine ⟨⌊a / 0.05⌋₊ * 0.05, hf, by linarith, framePose _ ⌊a / 0.05⌋₊, List.mem_map_of_mem ?_, rfl⟩
    rw [List.mem_range'_1]
    refine ⟨Nat.zero_le _, ?_⟩
    have : (⌊a / 0.05⌋₊ : ℝ) < 126 := by linarith
    exact_mod_cast this

/-- C97 case: a canvas 640 wide, no key. -/
example : (0 : ℝ) ≤ 640 ∧ (640 : ℝ) < 2 ^ 32 ∧ ∀ i < 126, (fun _ : ℕ => false) i = false :=
  ⟨by norm_num, by norm_num, fun _ _ => rfl⟩

/-- C97: after the first key no more frames are drawn. -/
theorem C97_key (shape : Shape) {w h : ℝ} (hw : 0 ≤ w) (hw' : w < 2 ^ 32) (hh : 0 ≤ h) (hh' : h < 2 ^ 32) (key : ℕ → Bool)
    (k : ℕ) (hk : k < 126) (h0 : ∀ i < k, key i = false) (h1 : key k = true) :
    ∃ poses : List Transform3, showKinect shape w h key = .ok (⌊w⌋₊, ⌊h⌋₊, poses) ∧ poses.length = k + 1 := by
  have hl := kinect_key (shape.getMaxRadius / 2) key hk h0 h1
  refine ⟨(List.range' 0 (k + 1)).map (framePose (shape.getMaxRadius / 2)), ?_, by simp⟩
  unfold showKinect
  simp only [castUInt_ok hw hw', castUInt_ok hh hh']
  rw [
    unbounded_eq (fun n => (hl n 0 (by omega)).1) ((hl (k + 1) 0 (by omega)).2 (by omega))]
  rfl

/-- C97: a canvas whose width is -1 or less or 2^32 or more is undefined behaviour, and so is such a height. -/
theorem C97_canvas (shape : Shape) {bad : ℝ} (hb : bad ≤ -1 ∨ 2 ^ 32 ≤ bad) (key : ℕ → Bool) :
    (∀ h, showKinect shape bad h key = .error .ub) ∧
    (∀ w, 0 ≤ w → w < 2 ^ 32 → showKinect shape w bad key = .error .ub) := by
  constructor
  · intro h
    unfold showKinect
    rw [castUInt_bad hb]
    rfl
  · intro w h0 h1
    unfold showKinect
    rw [castUInt_ok h0 h1, castUInt_bad hb]
    rfl

/-- C97 case: a canvas turned inside out. -/
example : (-640 : ℝ) ≤ -1 ∨ 2 ^ 32 ≤ (-640 : ℝ) := .inl (by norm_num)

/-- C97 is violated by `show`, as the language has it: a file of at least eight bytes none of the first eight of which is 0 is read
beyond a buffer, whatever Assimp would make of it. This holds for files in the own format and for text files. -/
theorem C97_show_wrong (ofRaw : RawMesh → Shape) (filename : List Char) (first rest : List UInt8) (hl : first.length = 8)
    (h0 : ∀ b ∈ first, b ≠ 0) (assimp : Option Import.AiScene) :
    showShape (List.replicate 8 none) [] ofRaw filename (some (first ++ rest)) assimp = .error .ub := by
  unfold showShape Serialization.fromFileIn Serialization.deserializeIn Serialization.openFile
  have h8 : (first ++ rest).take 8 = first := by rw [← hl, List.take_left]
  have hs : Serialization.cstring (first.map some ++ []) = .error .ub := by
    rw [Serialization.cstring_end _ h0]
    rfl
  simp only [IStream.read, Bool.not_true, Bool.false_eq_true, if_false, h8]
  rw [show (List.replicate 8 (none : Option UInt8)).drop first.length = [] from
    List.drop_eq_nil_of_le (by simp [hl]), List.append_nil, hs]
  rfl

/-- C97 case: the beginning of a text file, "solid cu". -/
example : ∀ b ∈ ([115, 111, 108, 105, 100, 32, 99, 117] : List UInt8), b ≠ 0 := by decide

/-- C97: what `show` does, as the language has it, for every file, also one that is missing: with a 0 among the first eight
bytes the file is left to Assimp, without one the behaviour is undefined. The own format is never recognised. -/
theorem C97_show_computes (ofRaw : RawMesh → Shape) (filename : List Char) (file : Option (List UInt8))
    (assimp : Option Import.AiScene) :
    ((∃ data, file = some data ∧ 0 ∈ data.take 8) →
      showShape (List.replicate 8 none) [] ofRaw filename file assimp = Import.readMeshFile assimp filename ⟨1, 1, 1⟩) ∧
    (¬ (∃ data, file = some data ∧ 0 ∈ data.take 8) →
      showShape (List.replicate 8 none) [] ofRaw filename file assimp = .error .ub) := by
  have hreg : ∀ k : List UInt8, k.length ≠ 8 →
      Serialization.register Serialization.Registry.empty [109, 101, 115, 104] RawMesh.read k = none :=
    fun k hk => Serialization.registered_length [([109, 101, 115, 104], RawMesh.read)] k hk
  constructor
  · rintro ⟨data, rfl, h0⟩
    obtain ⟨pre, post, e, hpre⟩ := List.eq_append_cons_of_mem h0
    have hlen : pre.length ≠ 8 := by
      have := congrArg List.length e
      simp only [List.length_take, List.length_append, List.length_cons] at this
      omega
    have hs : ∀ rest, Serialization.cstring ((data.take 8).map some ++ rest) = .ok pre := by
      intro rest
      rw [e, List.map_append, List.append_assoc, Serialization.cstring_end _ (fun b hb h => hpre (h ▸ hb))]
      simp [Serialization.cstring, Except.bind]
    unfold showShape Serialization.fromFileIn Serialization.deserializeIn Serialization.openFile
    simp only [IStream.read, Bool.not_true, Bool.false_eq_true, if_false]
    rw [List.append_nil, hs]
    simp only [bind, Except.bind, hreg pre hlen, pure, Except.pure]
  · intro h
    have hend : ∀ k, Serialization.cstring ((List.replicate 8 (none : Option UInt8)).drop k ++ []) = .error .ub := by
      intro k
      rw [List.append_nil, List.drop_replicate]
      cases 8 - k <;> rfl
    cases file with
    | none => rfl
    | some data =>
      have hs : Serialization.cstring ((data.take 8).map some ++
          (List.replicate 8 (none : Option UInt8)).drop (data.take 8).length ++ []) = .error .ub := by
        rw [List.append_assoc, Serialization.cstring_end _ (fun b hb e => h ⟨data, rfl, e ▸ hb⟩), hend]
        rfl
      unfold showShape Serialization.fromFileIn Serialization.deserializeIn Serialization.openFile
      simp only [IStream.read, Bool.not_true, Bool.false_eq_true, if_false]
      rw [hs]
      rfl

/-- C97 cases: a file that begins with zeros, and one that is too short. -/
example : (∃ data, some [(0 : UInt8), 0, 0, 0, 0, 0, 0, 0, 12] = some data ∧ 0 ∈ data.take 8) ∧
    ¬ (∃ data, some [(115 : UInt8), 111] = some data ∧ 0 ∈ data.take 8) := by
  refine ⟨⟨_, rfl, by decide⟩, ?_⟩
  rintro ⟨data, h, h0⟩
  cases h
  revert h0
  decide

/-- C97, partial: full statement: `show` shows what one of the two readers accepts; false, see `C97_show_wrong`. If the byte after
the buffer is 0, shapes in the own format are read by that reader, and files that begin with eight other bytes, none of
them 0, by Assimp. See also
`C97_show_computes`. -/
theorem C97_show_partial (ofRaw : RawMesh → Shape) (filename : List Char) (buf after : List (Option UInt8))
    (hbuf : buf.length = 8) (assimp : Option Import.AiScene) :
    (∀ m : RawMesh, m.points.length < 2 ^ 31 → m.tris.length < 2 ^ 31 →
      showShape buf (some 0 :: after) ofRaw filename (some (Serialization.toFile m none)) assimp = .ok (some (ofRaw m))) ∧
    (∀ first rest : List UInt8, first.length = 8 → (∀ b ∈ first, b ≠ 0) → first ≠ RawMesh.tag →
      showShape buf (some 0 :: after) ofRaw filename (some (first ++ rest)) assimp =
        Import.readMeshFile assimp filename ⟨1, 1, 1⟩) := by
  have hp : Serialization.pad [109, 101, 115, 104] = RawMesh.tag := by decide +kernel
  constructor
  · intro m h1 h2
    have hreg : Serialization.register Serialization.Registry.empty [109, 101, 115, 104] RawMesh.read
        (meshName ++ [32, 32, 32, 32]) = some RawMesh.read := by
      unfold Serialization.register
      rw [hp, if_pos (by decide +kernel)]
    unfold showShape
    simp only
    rw [(C47_round_trip_partial m h1 h2 _ hreg buf after hbuf []).2]
    rfl
  · intro first rest hl h0 hne
    have hreg : Serialization.register Serialization.Registry.empty [109, 101, 115, 104] RawMesh.read first = none := by
      unfold Serialization.register
      rw [hp, if_neg hne]
      rfl
    unfold showShape Serialization.fromFileIn Serialization.openFile
    simp only
    rw [C47_unknown _ first rest hl h0 hreg buf after hbuf]
    rfl

/-- C97: the depths that `show` maps to grey: a vertex within the radius, turned by any angle and put at three times the radius,
is in front of the camera, and its grey value is between -0.000001 and 1. -/
theorem C97_grey (p : Vec3) {r : ℝ} (hr : 0 < r) (hp : Spec.dist p ⟨0, 0, 0⟩ ≤ r) (angle : ℝ) :
    let q := ((Transform3.ofXYZRPY 0 0 0 1.57 0 (-1.57)).inverse.mul (Transform3.ofXYZRPY (r * 3) 0 0 0 0 angle)).apply p
    0 < -q.z ∧ -1e-6 ≤ grey r (-q.z) ∧ grey r (-q.z) ≤ 1 := by
  intro q
  obtain ⟨s, hs⟩ : ∃ s, s = Real.sin 1.57 := ⟨_, rfl⟩
  obtain ⟨c, hc⟩ : ∃ c, c = Real.cos 1.57 := ⟨_, rfl⟩
  obtain ⟨b, hb⟩ : ∃ b, b = Real.sin angle := ⟨_, rfl⟩
  obtain ⟨a, ha⟩ : ∃ a, a = Real.cos angle := ⟨_, rfl⟩
  have h1 : s * s + c * c = 1 := by rw [hs, hc]; nlinarith [Real.sin_sq_add_cos_sq 1.57]
  have h2 : b * b + a * a = 1 := by rw [hb, ha]; nlinarith [Real.sin_sq_add_cos_sq angle]
  have hc2 : c * c ≤ 6.4e-7 := by
    have hpi := Real.pi_lt_d4
    have hpi' := Real.pi_gt_d4
    have e : c = Real.sin (Real.pi / 2 - 1.57) := by rw [Real.sin_pi_div_two_sub, hc]
    have h3 : c ≤ 0.0008 := by
      rw [e]
      exact (Real.sin_le (by linarith)).trans (by linarith)
    have h4 : 0 ≤ c := by
      rw [e]
      exact Real.sin_nonneg_of_nonneg_of_le_pi (by linarith) (by linarith)
    nlinarith
  have hz : -q.z = 3 * r * (s * s) + (s * s * (a * p.x - b * p.y) + s * c * (b * p.x + a * p.y) - c * p.z) := by
    simp only [q, Transform3.ofXYZRPY, Transform3.inverse, Transform3.mul, Transform3.apply, Mat3.setRPY, Mat3.mul, Mat3.mulVec,
      Mat3.transpose, Real.sin_neg, Real.cos_neg, ← hs, ← hc, ← ha, ← hb, Real.sin_zero, Real.cos_zero]
    simp
    ring
  have hl : p.x * p.x + p.y * p.y + p.z * p.z ≤ r * r := by
    rw [Mesh.dist_origin] at hp
    have := Real.sqrt_le_left hr.le |>.1 hp
    rw [pow_two] at this
    exact this
  obtain ⟨A, hA⟩ : ∃ A, A = a * p.x - b * p.y := ⟨_, rfl⟩
  obtain ⟨B, hB⟩ : ∃ B, B = b * p.x + a * p.y := ⟨_, rfl⟩
  have hAB : A * A + B * B + p.z * p.z ≤ r * r := by
    have : A * A + B * B = (b * b + a * a) * (p.x * p.x + p.y * p.y) := by rw [hA, hB]; ring
    rw [this, h2]
    linarith
  rw [← hA, ← hB] at hz
  -- Cauchy-Schwarz for the unit vector (s², sc, -c)
  have hk : |s * s * A + s * c * B - c * p.z| ≤ r := by
    refine abs_le_of_sq_le_sq ?_ hr.le
    have e : (s * s) * (s * s) + (s * c) * (s * c) + c * c = 1 := by
      have : (s * s) * (s * s) + (s * c) * (s * c) = (s * s) * (s * s + c * c) := by ring
      rw [this, h1]
      linarith
    have lag : (s * s * A + s * c * B - c * p.z) ^ 2 = ((s * s) * (s * s) + (s * c) * (s * c) + c * c) * (A * A + B * B + p.z * p.z) -
        ((s * s * B - s * c * A) ^ 2 + (s * s * p.z + c * A) ^ 2 + (s * c * p.z + c * B) ^ 2) := by ring
    rw [lag, e]
    nlinarith [sq_nonneg (s * s * B - s * c * A), sq_nonneg (s * s * p.z + c * A), sq_nonneg (s * c * p.z + c * B)]
  obtain ⟨k1, k2⟩ := abs_le.1 hk
  have hss : s * s = 1 - c * c := by linarith
  have hrc : r * (c * c) ≤ r * 6.4e-7 := mul_le_mul_of_nonneg_left hc2 hr.le
  have hrc0 : 0 ≤ r * (c * c) := mul_nonneg hr.le (mul_self_nonneg c)
  have e3 : 3 * r * (s * s) = 3 * r - 3 * (r * (c * c)) := by rw [hss]; ring
  rw [e3] at hz
  have hpos : 0 < -q.z := by rw [hz]; linarith
  refine ⟨hpos, ?_, ?_⟩
  · rw [grey, if_pos hpos, le_div_iff₀ (by positivity)]
    rw [hz]
    linarith
  · rw [grey, if_pos hpos, div_le_one (by positivity)]
    rw [hz]
    linarith

/-- C97 case: a vertex at distance 1. -/
example : Spec.dist ⟨3 / 5, 0, 4 / 5⟩ ⟨0, 0, 0⟩ ≤ 1 := by
  rw [Mesh.dist_origin, Real.sqrt_le_left (by norm_num)]
  norm_num [Vec3.length2, Vec3.dot]


end Geo
