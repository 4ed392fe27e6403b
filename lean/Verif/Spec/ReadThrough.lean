import Verif.Spec.Restart
/-!
# Specification: READ with FUA
-/

namespace Scsi2Nvme.Spec
open Scsi2Nvme Engine

/-- A device with a volatile write cache (`Cached`) which commits what it reads, if the Read (02h) has the Force Unit Access bit (bit 30 of
command dword 12, which is bit 6 of byte 51) and is answered with success: the blocks are stored then. -/
structure Committing {σ : Type} (D : Device σ) (disks stable : σ → Disk) : Prop extends Cached D disks stable where
  fuaRead : ∀ s m sub, sub.buffer.toNat = leAt sub.cmd 24 8 → sub.is_admin = false → byte sub.cmd 0 = 0x02 → bit sub.cmd 51 6 = true →
    cplOk (D s m sub).2.2 → ∀ a, inRange (4096 * leAt sub.cmd 40 8) (4096 * (leAt sub.cmd 48 2 + 1)) a →
      stable (D s m sub).1 (leAt sub.cmd 4 4) a = disks (D s m sub).1 (leAt sub.cmd 4 4) a

end Scsi2Nvme.Spec
