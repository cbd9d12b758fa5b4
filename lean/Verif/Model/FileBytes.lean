import Verif.Model.Utils

/-!
# The bytes of a database file
-/

noncomputable section

open Classical

namespace PyBSM

/-- The number stored in 32 bits (IEEE 754 single precision): bit 31 is the sign, bits 23-30 the exponent, bits 0-22 the
fraction. Models the items of `np.fromfile(..., dtype=np.float32)`, `utils.py`:96-100. The sign of zero is not modelled. -/
def float32 (n : ℕ) : XR :=
  let e := n / 8388608 % 256
  let f := n % 8388608
  let s : ℝ := if n / 2147483648 % 2 = 0 then 1 else -1
  if e = 255 then
    if f ≠ 0 then .nan
    else if n / 2147483648 % 2 = 0 then .pinf else .ninf
  else if e = 0 then .fin (s * (f * 2 ^ (-149 : ℤ)))
  else .fin (s * ((8388608 + f) * 2 ^ ((e : ℤ) - 150)))

/-- `np.fromfile(name, dtype=np.float32, count=-1)`, `utils.py`:96-100: four bytes make one number, the least significant
first (the machines the package is used on are little-endian); one to three bytes left over at the end are ignored. -/
def fromFile : List UInt8 → List XR
  | a :: b :: c :: d :: rest =>
    float32 (a.toNat + 256 * b.toNat + 65536 * c.toNat + 16777216 * d.toNat) :: fromFile rest
  | _ => []

/-- The directory `atms`: the contents of the file `<n>.bin`, or `none` if there is none. (used at `utils.py`:94-100) -/
abbrev Disk := ℕ → Option (List UInt8)

/-- What the loaders read from the directory, `utils.py`:94-100. -/
def Disk.files (d : Disk) : Files := fun n => (d n).map fromFile

end PyBSM
