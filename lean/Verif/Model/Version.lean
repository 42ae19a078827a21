/-!
Version macros and the check of the library version at program start.
-/

namespace Vc.Model

/-- `Vc_VERSION_CHECK(major, minor, patch)` (/repo/Vc/version.h:55). -/
def versionCheck (major minor patch : Nat) : Nat := (major <<< 16) ||| (minor <<< 8) ||| (patch <<< 1)

/-- `Vc_VERSION_NUMBER` for `"1.4.4-dev"` (/repo/Vc/version.h:37-43). -/
def versionNumber : Nat := 0x010409

/-- Versions that are not released have the number of the last release and the lowest bit set. -/
def devNumber (major minor patch : Nat) : Nat := versionCheck major minor patch + 1

/-- What `Vc_LIBRARY_ABI_VERSION` and `Vc_VERSION_NUMBER` are in a library or a translation unit. -/
structure VersionInfo where
  abi : Nat
  number : Nat
  deriving DecidableEq

/-- A translation unit; `noCheck`: `Vc_NO_VERSION_CHECK` is defined. -/
structure TransUnit where
  info : VersionInfo
  noCheck : Bool

/-- `checkLibraryAbi` (/repo/src/const.cpp:254-261): whether it returns (otherwise it aborts). -/
def checkLibraryAbi (lib hdr : VersionInfo) : Bool := !(lib.abi != hdr.abi || decide (lib.number < hdr.number))

/-- Program start: the static object in every translation unit calls the function (/repo/Vc/version.h:86-118);
`true` if `main` is reached. -/
def programStarts (lib : VersionInfo) : List TransUnit → Bool
  | [] => true
  | t :: ts => if t.noCheck then programStarts lib ts else checkLibraryAbi lib t.info && programStarts lib ts

end Vc.Model
