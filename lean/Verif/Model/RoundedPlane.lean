import Verif.Model.RoundedLaser

/-!
# Poses in the plane in floating point arithmetic

`Model/Math` computes with real numbers. Here the rounding `rnd` follows every multiplication and addition, and `sin`, `cos` and
`atan2` are those of the platform `F`. With exact operations the functions are those of `Model/Math` (`C132_exact`).
Simplifications: no overflow and no subnormal numbers; products and sums are not fused.
-/

namespace Geo.RoundedPlane

/-- `a * x + b * y`, include/geolib/math_types.h:344,349. -/
def dot2 (rnd : ℝ → ℝ) (a b x y : ℝ) : ℝ := rnd (rnd (a * x) + rnd (b * y))

/-- `Vec2T::operator+`, include/geolib/math_types.h:58. -/
def add (rnd : ℝ → ℝ) (a b : Vec2) : Vec2 := ⟨rnd (a.x + b.x), rnd (a.y + b.y)⟩

/-- `Mat2T::operator*(Vec2T)`, include/geolib/math_types.h:344. -/
def mulVec (rnd : ℝ → ℝ) (m : Mat2) (v : Vec2) : Vec2 := ⟨dot2 rnd m.xx m.xy v.x v.y, dot2 rnd m.yx m.yy v.x v.y⟩

/-- `Mat2T::operator*(Mat2T)`, include/geolib/math_types.h:347-350. -/
def mulMat (rnd : ℝ → ℝ) (a m : Mat2) : Mat2 :=
  ⟨dot2 rnd a.xx a.xy m.xx m.yx, dot2 rnd a.xx a.xy m.xy m.yy, dot2 rnd a.yx a.yy m.xx m.yx, dot2 rnd a.yx a.yy m.xy m.yy⟩

/-- `Transform2T::operator*(Vec2T)`, include/geolib/math_types.h:737. -/
def apply (rnd : ℝ → ℝ) (T : Transform2) (v : Vec2) : Vec2 := add rnd (mulVec rnd T.R v) T.t

/-- `Transform2T::operator*(Transform2T)`, include/geolib/math_types.h:739. -/
def mul (rnd : ℝ → ℝ) (T S : Transform2) : Transform2 := ⟨mulMat rnd T.R S.R, add rnd (mulVec rnd T.R S.t) T.t⟩

/-- `Transform2T::inverse`, include/geolib/math_types.h:754-758; a change of sign is exact. -/
def inverse (rnd : ℝ → ℝ) (T : Transform2) : Transform2 :=
  let inv := T.R.transpose
  ⟨inv, mulVec rnd inv (-T.t)⟩

/-- `Transform2T::inverseTimes`, include/geolib/math_types.h:741-745. -/
def inverseTimes (rnd : ℝ → ℝ) (T S : Transform2) : Transform2 := mul rnd (inverse rnd T) S

/-- `Transform2T::setRotation`, include/geolib/math_types.h:760-769. -/
def setRotation (F : FloatLib) (T : Transform2) (yaw : ℝ) : Transform2 :=
  let c := F.cos yaw
  let s := F.sin yaw
  { T with R := ⟨c, -s, s, c⟩ }

/-- `Transform2T::rotation`, include/geolib/math_types.h:771. -/
def rotation (F : FloatLib) (T : Transform2) : ℝ := F.atan2 T.R.yx T.R.xx

end Geo.RoundedPlane
