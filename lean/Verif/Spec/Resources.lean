import Verif.Model.Resources

/-!
# What it means to leave nothing open

Files and mappings are numbered in the order in which they are opened (`World`).
-/
namespace Xlrd.Spec

/-- The numbers of open files and mappings have been given out. -/
def Sound (w : World) : Prop := ∀ h ∈ w.live, h < w.next

/-- The same files and mappings are open before and after. -/
def SameOpen (before after : World) : Prop := after.live = before.live

/-- One more is open than before, which was opened in between. -/
def OneMore (before after : World) (h : Nat) : Prop := after.live = h :: before.live ∧ before.next ≤ h

/-- All that was open before is still open, and nothing else, but for one that has been closed. -/
def OneLess (before after : World) (h : Nat) : Prop := after.live = before.live.erase h

/-- The path does not lead to a ZIP file. -/
def NotZip (path : Option Disk) : Prop := ∀ d, path = some d → ¬ ZIP_SIGNATURE <+: d.data

/-- The contents come from the path or are bytes. -/
def NoMapping (given : Given) : Prop := ∀ h b, given ≠ .mapping h b

/-- The system opens, reads and maps the file. -/
structure DiskWorks (d : Disk) : Prop where
  opens : d.opens = .ok ()
  measures : d.measures = .ok ()
  maps : d.maps = .ok ()
  reads : d.reads = .ok ()

end Xlrd.Spec
