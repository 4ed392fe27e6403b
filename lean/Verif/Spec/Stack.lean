import Verif.Spec.Driver
import Verif.Spec.ModuleTarget
/-!
# Specification: the whole stack - kernel module, engine, library, driver - over the block layer of the kernel
-/

namespace Scsi2Nvme.Spec
open Scsi2Nvme Engine Driver

/-- `disks b` are the contents of the disks in state `b` of the block layer: what the block layer does with requests and
mappings does not touch them, and executing a command does to disks, memory and completion what the device `D` does. -/
structure Backed {β : Type} (B : BlockLayer β) (disks : β → Disk) (D : Device Disk) : Prop where
  request : ∀ b sub b', B.allocRequest b sub = .ok b' → disks b' = disks b
  mapping : ∀ b a n, disks (B.mapKern b a n).2 = disks b
  free : ∀ b, disks (B.freeRequest b) = disks b
  execute : ∀ b m sub, disks (B.execute b m sub).1 = (D (disks b) m sub).1 ∧ (B.execute b m sub).2 = (D (disks b) m sub).2

/-- Disks of 4096-byte blocks below a driver which, as that of Linux, transfers the data between the disk and the buffer it
was handed over with the command, whatever the data pointers in the command are.  A buffer which is too small, or not
accessible, is answered with Data Transfer Error (04h), a range outside of the namespace with LBA Out of Range (80h).  Other
commands are answered with success without effect. -/
def mappedDevice (cap : Nat → Nat) : Device Disk := fun d m sub =>
  let nsid := leAt sub.cmd 4 4
  let lba := leAt sub.cmd 40 8
  let n := leAt sub.cmd 48 2 + 1
  let p := sub.buffer.toNat
  if sub.is_admin ∨ (byte sub.cmd 0 ≠ 0x01 ∧ byte sub.cmd 0 ≠ 0x02) then (d, m, generic 0)
  else if cap nsid < lba + n then (d, m, generic 0x80)
  else if sub.bufflen.toNat < 4096 * n then (d, m, generic 0x04)
  else if byte sub.cmd 0 = 0x02 then
    if m.mapped p (4096 * n) then (d, m.put p (d.read nsid (4096 * lba) (4096 * n)), generic 0)
    else (d, m, generic 0x04)
  else
    match m.read p (4096 * n) with
    | some bs => (d.write nsid (4096 * lba) bs, m, generic 0)
    | none => (d, m, generic 0x04)

end Scsi2Nvme.Spec
