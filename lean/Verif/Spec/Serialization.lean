import Verif.Model.Serialization

/-!
# Specification of the file format
-/

namespace Geo.Spec

/-- The number whose byte of weight 256^i is the i-th. (Specification.) -/
def number (bs : List UInt8) : ℕ := (bs.zipIdx.map fun b => b.1.toNat * 256 ^ b.2).sum

/-- The bytes from position `off` on, as many as there are in `init`; beyond the end of `bytes`, those of `init`.
(Specification.) -/
def window (bytes : List UInt8) (off : ℕ) (init : List UInt8) : List UInt8 :=
  (List.range init.length).map fun i => bytes.getD (off + i) (init.getD i 0)

/-- The bytes of a quiet NaN. (Specification.) -/
def nan8 : List UInt8 := [0, 0, 0, 0, 0, 0, 0xF8, 0x7F]

/-- The number in the 8 bytes at `off`, NaN beyond the end. (Specification.) -/
def doubleAt (bytes : List UInt8) (off : ℕ) : UInt64 := UInt64.ofNat (number (window bytes off nan8))

/-- The number in the 4 bytes at `off`, 0 beyond the end. (Specification.) -/
def wordAt (bytes : List UInt8) (off : ℕ) : ℕ := number (window bytes off [0, 0, 0, 0])

/-- The count in the 4 bytes at `off`: 0 if the sign bit is set. (Specification.) -/
def countAt (bytes : List UInt8) (off : ℕ) : ℕ := if wordAt bytes off < 2 ^ 31 then wordAt bytes off else 0

/-- The point in the 24 bytes at `off`. (Specification.) -/
def pointAt (bytes : List UInt8) (off : ℕ) : RawPoint :=
  ⟨doubleAt bytes off, doubleAt bytes (off + 8), doubleAt bytes (off + 16)⟩

/-- The triangle in the 12 bytes at `off`. (Specification.) -/
def triAt (bytes : List UInt8) (off : ℕ) : RawTri :=
  ⟨UInt32.ofNat (wordAt bytes off), UInt32.ofNat (wordAt bytes (off + 4)), UInt32.ofNat (wordAt bytes (off + 8))⟩

/-- The padded or truncated name. (Specification.) -/
def tagOf (name : List UInt8) : List UInt8 := (name ++ List.replicate 8 32).take 8

/-- The letters `mesh`. (Specification.) -/
def meshName : List UInt8 := "mesh".toUTF8.toList

end Geo.Spec
