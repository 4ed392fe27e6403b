import Verif.Spec.Cache
import Verif.Spec.ModuleHonest
/-!
# Specification: power failures
-/

namespace Scsi2Nvme.Spec
open Scsi2Nvme Engine

/-- The power failed when the device was in state `s`, and came back: of every byte of the disks, what is found is what was stored or
what commands saw last (which of the two is up to the device, for each byte), and all that is found is stored. -/
structure Outage {σ : Type} (disks stable : σ → Disk) (s s' : σ) : Prop where
  found : ∀ k a, disks s' k a = stable s k a ∨ disks s' k a = disks s k a
  stored : stable s' = disks s'

/-- The power failed when the device was in state `s`, and any number of times since; in between, calls of the engine were made, any
number, interleaved in any way and cut off by the next failure anywhere, none of which writes any of the blocks `lba … lba+n-1` of LUN `l`.
The last time it came back with the device in state `s'`. -/
inductive Outages (ι : Type) {σ : Type} [DecidableEq ι] (E : Env) (D : Device σ) (disks stable : σ → Disk) (l lba n : Nat) : σ → σ → Prop
  | one {s s'} (h : Outage disks stable s s') : Outages ι E D disks stable l lba n s s'
  | again {s s' s'' q m tr sched y} (h : Outages ι E D disks stable l lba n s s') (hq : Separate (ι := ι) q m)
      (hl : ∀ i, (q i).leaves l lba n) (hr : (Sys.start s' m tr).run E D q sched = .ok y) (ho : Outage disks stable y.dev s'') :
      Outages ι E D disks stable l lba n s s''

/-- The same for commands handed to the kernel module. -/
inductive ModuleOutages (ι : Type) {σ : Type} [DecidableEq ι] (K : Module.Kernel) (junk : World → Nat → Byte) (D : Device σ) (disks stable : σ → Disk)
    (l lba n : Nat) : σ → σ → Prop
  | one {s s'} (h : Outage disks stable s s') : ModuleOutages ι K junk D disks stable l lba n s s'
  | again {s s' s'' c m tr sched y} (h : ModuleOutages ι K junk D disks stable l lba n s s') (hc : Disjoint (ι := ι) c m)
      (hl : ∀ i, (c i).leaves l lba n) (hr : (Host.start s' m tr).run K junk D c sched = .ok y) (ho : Outage disks stable y.dev s'') :
      ModuleOutages ι K junk D disks stable l lba n s s''

end Scsi2Nvme.Spec
