import Verif.Spec.Honest
/-!
# Specification: the kernel module over a device which may fail but does not lie
-/

namespace Scsi2Nvme.Spec
open Scsi2Nvme Engine

/-- What the SCSI layer can rely on although the device fails.  A READ with result 0 is complete and correct, its scatter-gather list
begins with the blocks, and is unchanged behind them, and the residual count is right; a WRITE with result 0 is complete and correct, and
the blocks are replaced by the data; a WRITE with another result may have replaced some of the bytes it covers, and nothing else; no other
command changes the disks. -/
inductive Relied (d : Disk) (q : Command) (o : Module.Outcome) : Disk → Prop
  | read {lba n} (op : isRead (byte q.cdb 0)) (h : q.asks (lba + n) lba n) (good : o.result = 0)
      (data : o.sg = d.read q.cmd.lun.toNat (4096 * lba) (4096 * n) ++ q.cmd.sg.drop (4096 * n))
      (resid : o.resid = some ((q.cmd.sg.length : Int) - 4096 * n)) : Relied d q o d
  | write {lba n} (op : isWrite (byte q.cdb 0)) (h : q.asks (lba + n) lba n) (good : o.result = 0) (data : o.sg = q.cmd.sg) :
      Relied d q o (d.write q.cmd.lun.toNat (4096 * lba) (q.cmd.sg.take (4096 * n)))
  | unread (op : isRead (byte q.cdb 0)) (bad : o.result ≠ 0) : Relied d q o d
  | torn {d'} (op : isWrite (byte q.cdb 0)) (bad : o.result ≠ 0) (h : ∀ k a, d' k a = d k a ∨ q.carries k a (d' k a)) : Relied d q o d'
  | other (op : ¬ isRead (byte q.cdb 0) ∧ ¬ isWrite (byte q.cdb 0)) : Relied d q o d

/-- The commands of `order`, executed one after the other in this order, with outcomes `out`, change the disks from `d` to `d'`, each as
`Relied` says. -/
inductive ReliedAll {ι : Type} (c : ι → Command) (out : ι → Module.Outcome) : Disk → List ι → Disk → Prop
  | nil {d} : ReliedAll c out d [] d
  | cons {d i d' is d''} (h : Relied d (c i) (out i) d') (t : ReliedAll c out d' is d'') : ReliedAll c out d (i :: is) d''

/-- The command is not a complete and correct WRITE to any of the blocks `lba … lba+n-1` of LUN `lun`. -/
def Command.leaves (q : Command) (lun lba n : Nat) : Prop :=
  isWrite (byte q.cdb 0) → q.cmd.lun.toNat = lun → ∀ l k, q.asks (l + k) l k → l + k ≤ lba ∨ lba + n ≤ l

end Scsi2Nvme.Spec
