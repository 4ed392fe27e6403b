import Verif.Model.ModuleConcurrent
import Verif.Spec.ModuleTarget
import Verif.Spec.Controller
import Verif.Spec.Reply
/-!
# Specification: calls of the kernel module made concurrently

Any number of commands, named by `ι`, share the device, the memory and the kernel's allocator.  A schedule says whose turn it is.
-/

namespace Scsi2Nvme.Spec
open Scsi2Nvme Engine

/-- The whole system: the device, memory and allocator, and where each call is. -/
structure Host (ι σ : Type) where
  dev : σ
  world : World
  phase : ι → Module.Phase

/-- No call has begun. -/
def Host.start {ι σ : Type} (s : σ) (m : Mem) (tr : List Event) : Host ι σ := ⟨s, ⟨m, tr⟩, fun _ => .queued⟩

/-- The call for command `i` makes a step. -/
def Host.step {ι σ : Type} [DecidableEq ι] (K : Module.Kernel) (junk : World → Nat → Byte) (D : Device σ) (c : ι → Command) (y : Host ι σ)
    (i : ι) : Except UB (Host ι σ) :=
  match Module.advance K junk D (c i).ws (c i).uninit (c i).cmd y.dev (y.phase i) y.world with
  | .error e => .error e
  | .ok ((ph, s), w) => .ok ⟨s, w, fun j => if j = i then ph else y.phase j⟩

/-- The calls make steps according to a schedule. -/
def Host.run {ι σ : Type} [DecidableEq ι] (K : Module.Kernel) (junk : World → Nat → Byte) (D : Device σ) (c : ι → Command) (y : Host ι σ) :
    List ι → Except UB (Host ι σ)
  | [] => .ok y
  | i :: is =>
    match y.step K junk D c i with
    | .error e => .error e
    | .ok y' => y'.run K junk D c is

/-- The memory handed over with a command: command block and sense buffer.  (The scatter-gather list is not in this memory.) -/
def Command.uses (q : Command) (a : Nat) : Prop :=
  inRange q.cmd.cmnd q.cdb.length a ∨ inRange q.cmd.sense_buffer 96 a

/-- The commands: all in the same memory, each as for histories, with a sense buffer, any two with different memory. -/
structure Disjoint {ι : Type} (c : ι → Command) (m : Mem) : Prop where
  mem : ∀ i, (c i).mem = m
  fair : ∀ i, (c i).Fair
  sense : ∀ i, accessible m ⟨(c i).cmd.sense_buffer, 96⟩
  apart : ∀ i j, i ≠ j → ∀ a, (c i).uses a → ¬ (c j).uses a

/-- The kernel refused memory for the data buffer of command `i`, somewhere on the way the schedule goes. -/
def Refused {ι σ : Type} [DecidableEq ι] (K : Module.Kernel) (junk : World → Nat → Byte) (D : Device σ) (c : ι → Command) (y : Host ι σ)
    (sched : List ι) (i : ι) : Prop :=
  ∃ before after y', sched = before ++ i :: after ∧ y.run K junk D c before = .ok y' ∧ y'.phase i = .queued ∧
    (K.kzalloc y'.world ((c i).cmd.sg.length % 65536)).1 = 0

/-- The commands of `order`, executed one after the other in this order, with outcomes `out`, change the disks from `d` to `d'`,
each as the SCSI layer expects (`Managed`). -/
inductive InTurn {ι : Type} (cap : Nat → Nat) (refused : ι → Prop) (c : ι → Command) (out : ι → Module.Outcome) : Disk → List ι → Disk → Prop
  | nil {d} : InTurn cap refused c out d [] d
  | cons {d i d' is d''} (h : Managed (refused i) cap d (c i) (out i) d') (t : InTurn cap refused c out d' is d'') :
    InTurn cap refused c out d (i :: is) d''

/-- The outcome of an information command, with `n` the buffer length (16 bits): result 0.  If the direction is data-in and `n` is not 0,
the scatter-gather list begins with the data of `reply`, filled up with zeros to the allocation length, and is unchanged behind that,
and the residual count is what the allocation length leaves of `n`; otherwise the list is unchanged and there is no residual count.
(`stack` is the uninitialised stack memory which reaches the answer of VPD page 80h.) -/
def Replied (q : Command) (Q : Query) (o : Module.Outcome) : Prop :=
  let n := q.cmd.sg.length % 65536
  ∃ stack : List Byte, stack.length = 33 ∧
    let bs := reply q.cdb (nsidOfLun q.cmd.lun) Q.len stack Q.page0 Q.page1 (Q.dw0 % 2 ^ 32)
    o = if q.cmd.is_data_in = true ∧ n ≠ 0 then ⟨0, some ((n : Int) - Q.len), bs ++ List.replicate (Q.len - bs.length) 0 ++ q.cmd.sg.drop Q.len⟩
      else ⟨0, none, q.cmd.sg⟩

/-- The command is being executed. -/
def Host.busy {ι σ : Type} (y : Host ι σ) (i : ι) : Prop := y.phase i ≠ .queued ∧ ∀ o, y.phase i ≠ .done o

/-- How many bytes of data a command asks for, by its own command block: the field ALLOCATION LENGTH of REQUEST SENSE, INQUIRY,
MODE SENSE(6), and the field at bytes 6 to 9, which is read for REPORT LUNS, MAINTENANCE IN and (see C32) MODE SENSE(10); the size of
the answer of READ CAPACITY(10).  (READ commands: see `wellBuffered`.) -/
def allocationLength (cdb : List Byte) : Nat :=
  match byte cdb 0 with
  | 0x03 => byte cdb 4
  | 0x12 => beAt cdb 3 2
  | 0x1a => byte cdb 4
  | 0x25 => 8
  | 0x5a => beAt cdb 6 4
  | 0xa0 => beAt cdb 6 4
  | 0xa3 => beAt cdb 6 4
  | _ => 0

/-- `order` contains, once each, all commands which are done, and no command for which the engine has not begun; `out` are the
outcomes. -/
structure Accounts {ι σ : Type} (y : Host ι σ) (order : List ι) (out : ι → Module.Outcome) : Prop where
  once : order.Nodup
  begun : ∀ i ∈ order, y.phase i ≠ .queued ∧ ∀ b, y.phase i ≠ .engine b .called
  done : ∀ i o, y.phase i = .done o → i ∈ order ∧ out i = o

end Scsi2Nvme.Spec
