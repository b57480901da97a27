import Verif.Model.Box
import Verif.Model.LaserRangeFinder
import Verif.Model.Tools

/-!
# Model of the programs test/test_geolib_lrf.cpp and test/test_geolib.cpp

Modelled are the parameters, the scan and the picture of `test_geolib_lrf`, and of `test_geolib` the drawing of scans and the grid
of the height map. What the programs print, the window, the colours, and how OpenCV draws a polygon, a line or a circle between
given pixels are left out. Doubles are real numbers.
-/

namespace Geo.TestPrograms

/-- The parameters of `test_geolib_lrf`, test/test_geolib_lrf.cpp:52-63 (the height is 1). -/
structure ScanOptions where
  numBeams : ℕ
  x : ℝ
  y : ℝ
  yaw : ℝ
  W : ℝ
  L : ℝ

/-- The parameters, test/test_geolib_lrf.cpp:52-89; `none` for the usage message. `argv` includes the name of the program, `atoi`
and `atof` are the library functions; the number of beams is converted from `int` to `unsigned int`. -/
noncomputable def scanOptions (atoi : List Char → ℤ) (atof : List Char → ℝ) (argv : List (List Char)) : Exec (Option ScanOptions) :=
  let argc := argv.length
  if argc ≥ 2 then
    if (argv.drop 1).any (fun a => a = "--help".toList || a = "-h".toList) then return none
    else do
      let n := ((atoi (← vget argv 1)) % 2 ^ 32).toNat
      let x ← if argc ≥ 5 then (do return atof (← vget argv 2)) else pure 2
      let y ← if argc ≥ 5 then (do return atof (← vget argv 3)) else pure 0.5
      let yaw ← if argc ≥ 5 then (do return atof (← vget argv 4)) else pure (Real.pi / 2)
      let W ← if argc ≥ 7 then (do return atof (← vget argv 5)) else pure 1
      let L ← if argc ≥ 7 then (do return atof (← vget argv 6)) else pure 2
      return some ⟨n, x, y, yaw, W, L⟩
  else return some ⟨7, 2, 0.5, Real.pi / 2, 1, 2⟩

/-- `getObjectCornerPoints`, test/test_geolib_lrf.cpp:12-48. -/
noncomputable def cornerPoints (x0 y0 : ℕ) (xObj yObj L W yaw ppm : ℝ) : Exec (List (ℤ × ℤ)) := do
  let obj_yaw := -yaw
  let cos_th := Real.cos obj_yaw
  let sin_th := Real.sin obj_yaw
  let x1 ← castInt (-L / 2 * ppm)
  let x2 ← castInt (L / 2 * ppm)
  let y1 ← castInt (-W / 2 * ppm)
  let y2 ← castInt (W / 2 * ppm)
  let xt1 ← castInt (x0 + xObj * ppm + cos_th * x1 + sin_th * y1)
  let xt2 ← castInt (x0 + xObj * ppm + cos_th * x2 + sin_th * y1)
  let xt3 ← castInt (x0 + xObj * ppm + cos_th * x2 + sin_th * y2)
  let xt4 ← castInt (x0 + xObj * ppm + cos_th * x1 + sin_th * y2)
  let yt1 ← castInt (y0 - (yObj * ppm - sin_th * x1 + cos_th * y1))
  let yt2 ← castInt (y0 - (yObj * ppm - sin_th * x2 + cos_th * y1))
  let yt3 ← castInt (y0 - (yObj * ppm - sin_th * x2 + cos_th * y2))
  let yt4 ← castInt (y0 - (yObj * ppm - sin_th * x1 + cos_th * y2))
  return [(xt1, yt1), (xt2, yt2), (xt3, yt3), (xt4, yt4)]

open Classical in
/-- The end point of a beam, test/test_geolib_lrf.cpp:136-139. An infinite range makes the conversion to `int` undefined. -/
noncomputable def endPoint (x0 y0 : ℕ) (ppm th : ℝ) (range : EReal) : Exec (ℤ × ℤ) :=
  if range = ⊤ then .error .ub
  else do
    let r := range.toReal * ppm
    let r := if r < 0.01 then 10 * ppm else r
    let ex ← castInt (x0 + r * Real.cos th)
    let ey ← castInt (y0 - r * Real.sin th)
    return (ex, ey)

/-- The loop over the ranges, test/test_geolib_lrf.cpp:134-147, from the angle `th` on: the end points of the beams. -/
noncomputable def endPoints (x0 y0 : ℕ) (ppm incr : ℝ) : List EReal → ℝ → Exec (List (ℤ × ℤ))
  | [], _ => return []
  | r :: rs, th => do
    let p ← endPoint x0 y0 ppm th r
    let ps ← endPoints x0 y0 ppm incr rs (th + incr)
    return p :: ps

/-- What `test_geolib_lrf` draws: the corners of the object, test/test_geolib_lrf.cpp:122-125, and the end points of the beams,
test/test_geolib_lrf.cpp:134-147; also the ranges, test/test_geolib_lrf.cpp:109-113. -/
structure Picture where
  ranges : List EReal
  corners : List (ℤ × ℤ)
  ends : List (ℤ × ℤ)

/-- `main` of `test_geolib_lrf` after reading the parameters, test/test_geolib_lrf.cpp:93-147. The picture has 501 by 501 pixels,
100 per metre, and the origin at the pixel (50, 250). -/
noncomputable def scanPicture (o : ScanOptions) : Exec Picture := do
  let box := Box.new ⟨-o.L / 2, -o.W / 2, -1 / 2⟩ ⟨o.L / 2, o.W / 2, 1 / 2⟩
  let pose := Transform3.ofXYZRPY o.x o.y 0 0 0 o.yaw
  let l ← LRF.new.setNumBeams o.numBeams
  let l ← l.setAngleLimits (-90 / 180 * Real.pi) (90 / 180 * Real.pi)
  let l := l.setRangeLimits 0.01 100
  let res ← l.render box.mesh pose (List.replicate o.numBeams 0)
  let corners ← cornerPoints (501 / 10) (501 / 2) o.x o.y o.L o.W o.yaw 100
  let ends ← endPoints (501 / 10) (501 / 2) 100 l.getAngleIncrement res.ranges (-90 / 180 * Real.pi)
  return ⟨res.ranges, corners, ends⟩

/-- A picture with one number per pixel, `at row column`: `cv::Mat` of type `CV_32FC1`, test/test_geolib.cpp:78,382. -/
structure Mat32F where
  rows : ℕ
  cols : ℕ
  data : ℕ → ℕ → ℝ

/-- `image.at<float>(y, x) = 1`, test/test_geolib.cpp:87,395: the coordinates are converted to `int`; an access outside the picture
is undefined. -/
noncomputable def mark (image : Mat32F) (y x : ℝ) : Exec Mat32F := do
  let r ← castInt y
  let c ← castInt x
  if 0 ≤ r ∧ r < image.rows ∧ 0 ≤ c ∧ c < image.cols then
    return { image with data := fun i j => if (i : ℤ) = r ∧ (j : ℤ) = c then 1 else image.data i j }
  else .error .ub

/-- The loop of `renderLRF` that draws the ranges if `show` is set, test/test_geolib.cpp:80-88. The ranges are finite here. -/
noncomputable def showRanges (angles ranges : List ℝ) (image : Mat32F) : Exec Mat32F :=
  (List.range angles.length).foldlM (init := image) fun image i => do
    let p := LRF.polarTo2D (← vget angles i) (← vget ranges i)
    mark image (p.y * 25 + (image.rows / 2 : ℕ)) (p.x * 25 + (image.cols / 2 : ℕ))

open Classical in
/-- The loop of `main` that draws the points of a scan, test/test_geolib.cpp:387-397; `image` and `lrf_image` of the
code have the same size. -/
noncomputable def drawPoints (points : List Vec3) (image : Mat32F) : Exec Mat32F :=
  points.foldlM (init := image) fun image p =>
    let x : ℝ := -p.y * 25 + (image.cols / 2 : ℕ)
    let y : ℝ := -p.x * 25 + (image.rows / 2 : ℕ)
    if x ≥ 0 ∧ y ≥ 0 ∧ x < image.cols ∧ y < image.rows then mark image y x else return image

/-- `map[a][b] = h`, test/test_geolib.cpp:297-300. -/
def setCell (map : List (List ℝ)) (a b : ℕ) (h : ℝ) : Exec (List (List ℝ)) := do
  let row ← vget map a
  let row ← Tools.vset row b h
  Tools.vset map a row

/-- The four assignments of one step, test/test_geolib.cpp:292-300. The indices of the code do not get negative for `j < n / 2`,
`i < n - 2 j`. -/
noncomputable def ringStep (n j : ℕ) (map : List (List ℝ)) (i : ℕ) : Exec (List (List ℝ)) := do
  let h : ℝ := 0.1 * j
  let map ← setCell map (i + j) j h
  let map ← setCell map (i + j) (n - j - 1) h
  let map ← setCell map j (i + j) h
  setCell map (n - j - 1) (i + j) h

/-- The grid of the height map, test/test_geolib.cpp:281-302, for `hmap_size = n` (20 in the code). -/
noncomputable def pyramid (n : ℕ) : Exec (List (List ℝ)) :=
  (List.range (n / 2)).foldlM (init := List.replicate n (List.replicate n 0)) fun map j =>
    (List.range (n - j * 2)).foldlM (init := map) (ringStep n j)

end Geo.TestPrograms
