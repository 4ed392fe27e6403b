import Verif.Spec.Cache
/-!
# Specification: how data get out of a write cache
-/

namespace Scsi2Nvme.Spec
open Scsi2Nvme Engine

/-- A device with a volatile write cache (`Cached`) which stores nothing else than what commands see: with each command, a stored byte stays as it
was, or becomes what commands saw of it before, or what they see after. -/
structure WriteBack {σ : Type} (D : Device σ) (disks stable : σ → Disk) : Prop extends Cached D disks stable where
  ages : ∀ s m sub, sub.buffer.toNat = leAt sub.cmd 24 8 → ∀ k a,
    stable (D s m sub).1 k a = stable s k a ∨ stable (D s m sub).1 k a = disks s k a ∨
      stable (D s m sub).1 k a = disks (D s m sub).1 k a

end Scsi2Nvme.Spec
