import Verif.Model.FilePerms

/-!
# Specification: kinds and permissions of files, as in stat(2)
-/

namespace Fwknop.Spec

open Fwknop

/-- The kind of a file is in the bits 12 to 15 of its mode: 8 is a regular file, 4 a directory, 10 a symbolic link. -/
def IsRegular (mode : Nat) : Prop := mode / 4096 % 16 = 8
def IsDirectory (mode : Nat) : Prop := mode / 4096 % 16 = 4
def IsSymlink (mode : Nat) : Prop := mode / 4096 % 16 = 10

/-- The owner may execute it: bit 6. -/
def OwnerExecutes (mode : Nat) : Prop := mode / 64 % 2 = 1

/-- Only its owner may read and write it, nobody may execute it: 0600. -/
def OnlyOwner (mode : Nat) : Prop := mode % 512 = 6 * 64

instance (m : Nat) : Decidable (IsRegular m) := inferInstanceAs (Decidable (_ = _))
instance (m : Nat) : Decidable (IsSymlink m) := inferInstanceAs (Decidable (_ = _))
instance (m : Nat) : Decidable (OnlyOwner m) := inferInstanceAs (Decidable (_ = _))

/-- Nobody but the user has a say in the file. -/
def Private (me : Nat) (f : FileNode) : Prop := IsRegular f.mode ∧ OnlyOwner f.mode ∧ f.uid = me

end Fwknop.Spec
