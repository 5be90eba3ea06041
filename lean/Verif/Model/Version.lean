/-
sudo API versions: sudo_plugin-sys/src/lib.rs and sudo_plugin/src/version.rs.
-/
namespace SudoPair

/-- `sudo_api_mkversion` (sudo_plugin-sys/src/lib.rs:165-167): `major << 16 | minor` on `c_uint`. -/
def mkVersion (major minor : BitVec 32) : BitVec 32 := (major <<< 16) ||| minor

/-- `sudo_api_version_get_major` (sudo_plugin-sys/src/lib.rs:185-187). -/
def getMajor (v : BitVec 32) : BitVec 32 := v >>> 16

/-- `sudo_api_version_get_minor` (sudo_plugin-sys/src/lib.rs:205-207). -/
def getMinor (v : BitVec 32) : BitVec 32 := v &&& 0xffff#32

/-- `SUDO_API_VERSION` (sudo_plugin-sys/src/lib.rs:210-213, bindings: major 1, minor 17). -/
def sudoApiVersion : BitVec 32 := mkVersion 1 17

/-- `Version` (sudo_plugin/src/version.rs:23-27): two `u16`. -/
structure Version where
  major : BitVec 16
  minor : BitVec 16
  deriving DecidableEq, Repr

namespace Version

/-- `Version::from_ffi` (version.rs:34-42): truncating casts of the two components. -/
def fromFfi (v : BitVec 32) : Version :=
  { major := (getMajor v).setWidth 16, minor := (getMinor v).setWidth 16 }

/-- `Version::into_ffi` (version.rs:44-49): zero-extending casts, then packing. -/
def intoFfi (v : Version) : BitVec 32 :=
  mkVersion (v.major.setWidth 32) (v.minor.setWidth 32)

/-- `MINIMUM` (version.rs:21). -/
def minimum : Version := ⟨1, 9⟩

/-- The derived `PartialOrd`/`Ord` (version.rs:23): lexicographic in declaration order. `ge a b` is
`a >= b`. -/
def ge (a b : Version) : Bool :=
  b.major < a.major || (a.major = b.major && b.minor ≤ a.minor)

/-- `Version::supported` (version.rs:55-57). -/
def supported (v : Version) : Bool := ge v minimum

end Version
end SudoPair
