import Verif.Model.Rounded
import Verif.Model.Conversions

/-!
# Quaternions of matrices, and poses in messages, in floating point arithmetic

`Model/Math` and `Model/Conversions` with the rounding `rnd` after every operation; with `rnd` the identity the functions are
those (`C127_exact`). Simplifications: those of `Model/Rounded`; the numbers of a matrix are `double`s, so that the constant 0.5
has their type; the square root rounds as an operation does. Copies and comparisons are exact.
-/

namespace Geo.Rounded

/-- `Mat3T::getRotation`, include/geolib/math_types.h:614-642. Simplification as in `Mat3.getRotation`: a root of a negative
number or a division by zero gives 0; `C127_read` shows that neither occurs. -/
noncomputable def getRotation (rnd : ℝ → ℝ) (a : Mat3) : Quat :=
  let trace := rnd (rnd (a.xx + a.yy) + a.zz)
  if trace > 0 then
    let s := rnd (Real.sqrt (rnd (trace + 1)))
    let q := Quat.set ⟨0, 0, 0, 0⟩ 3 (rnd (s / 2))
    let s := rnd (0.5 / s)
    let q := q.set 0 (rnd (rnd (a.zy - a.yz) * s))
    let q := q.set 1 (rnd (rnd (a.xz - a.zx) * s))
    q.set 2 (rnd (rnd (a.yx - a.xy) * s))
  else
    let i := if a.xx < a.yy then (if a.yy < a.zz then 2 else 1) else (if a.xx < a.zz then 2 else 0)
    let j := (i + 1) % 3
    let k := (i + 2) % 3
    let s := rnd (Real.sqrt (rnd (rnd (rnd (a.get (i * 4) - a.get (j * 4)) - a.get (k * 4)) + 1)))
    let q := Quat.set ⟨0, 0, 0, 0⟩ i (rnd (s / 2))
    let s := rnd (0.5 / s)
    let q := q.set 3 (rnd (rnd (a.get (k * 3 + j) - a.get (j * 3 + k)) * s))
    let q := q.set j (rnd (rnd (a.get (j * 3 + i) + a.get (i * 3 + j)) * s))
    q.set k (rnd (rnd (a.get (k * 3 + i) + a.get (i * 3 + k)) * s))

/-- The number of which `Mat3T::getRotation` takes the root in the branch taken, include/geolib/math_types.h:616-634 (used to
state that no invalid operation happens). -/
noncomputable def getRotationRadicand (rnd : ℝ → ℝ) (a : Mat3) : ℝ :=
  let trace := rnd (rnd (a.xx + a.yy) + a.zz)
  if trace > 0 then rnd (trace + 1)
  else
    let i := if a.xx < a.yy then (if a.yy < a.zz then 2 else 1) else (if a.xx < a.zz then 2 else 0)
    let j := (i + 1) % 3
    let k := (i + 2) % 3
    rnd (rnd (rnd (a.get (i * 4) - a.get (j * 4)) - a.get (k * 4)) + 1)

open Ros in
/-- `convert(geo::Transform, Pose)`, include/geolib/ros/msg_conversions.h:87-91, with 75-80. -/
noncomputable def toPose (rnd : ℝ → ℝ) (t : Transform3) : Pose := ⟨toPoint t.t, toQuaternion (getRotation rnd t.R)⟩

open Ros in
/-- `convert(Pose, geo::Transform)`, include/geolib/ros/msg_conversions.h:199-203, with 187-192. -/
noncomputable def ofPose (rnd : ℝ → ℝ) (m : Pose) : Transform3 :=
  ⟨setRotation rnd (ofQuaternion m.orientation), ofPoint m.position⟩

/-- A pose that is sent as a message and read by the receiver, include/geolib/ros/msg_conversions.h:87-91,199-203. (Models a
client.) -/
noncomputable def hop (rnd : ℝ → ℝ) (t : Transform3) : Transform3 := ofPose rnd (toPose rnd t)

end Geo.Rounded
