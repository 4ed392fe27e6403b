# Formal model of googleinterns/scsi2nvme in Lean 4

Everything is under `lean/Verif/`:

| directory | content |
|---|---|
| `Model/` | the model of the C++ code, function by function, each definition citing file and lines |
| `Spec/`  | small independent specifications (SCSI CDB decoding by byte position, NVMe submission entry decoding by byte position, status table, API automaton, abstract block store). They do not use the model's layouts |
| `Proofs/` | helper lemmas |
| `Properties/` | the property theorems, each with a non-vacuity `example` |
| `Validation/` | the repository's own unit tests (test/translator), replayed on the model: tests of the model's fidelity, not proofs of properties |

## Trusted base

* Lean 4.33 kernel; axioms used by the theorems: at most `propext`, `Classical.choice`, `Quot.sound`
  (checked with `#print axioms` on every theorem in MANIFEST.json). No own axioms, no `native_decide`, no `bv_decide`.
* The reading of the C++ source. The code was not run. Every model definition cites `/repo` lines. `Validation/` evaluates the model on
  the inputs of the repository's unit tests and checks the outputs these tests expect (all test files; four tests are left out, named there).
* The C++ implementation facts the model assumes:
  * x86-64 Linux ABI / GCC: packed bit-fields are allocated LSB first, without padding, multi-byte fields little endian
    (the only layout under which the `static_assert`s and the `ntoh*` calls in the code make sense);
    `int` has 32 bits; `size_t`, `uintptr_t` 64 bits.
  * Memory is a partial map from addresses to bytes (`Mem := Nat -> Option Byte`); an access to an unmapped byte is the
    outcome `UB`. Null dereference, out-of-bounds access of the 3-element arrays, access past `cpl_data`, over-wide shifts
    and flowing off the end of a non-void function are explicit `UB` outcomes.
  * `DebugLog` and the debug callback have no effect on the state (a debug callback that re-enters the library is not modelled).
  * The allocator callbacks are arbitrary functions of the world so far (so arbitrary failure patterns and addresses);
    theorems that need a well-behaved allocator say so with an explicit predicate that is shown to be satisfiable.
  * Indeterminate stack bytes are read from an arbitrary oracle `junk`; a theorem quantified over it holds for every content.
  * The CDB bytes are read from memory at the start of Begin and again in Complete; a snapshot of the whole span is taken
    instead of byte-wise lazy reads (so the model needs the whole CDB span readable; the code reads a prefix of it).
    In the same way identify pages are read as a 4096-byte snapshot (the code reads a few fields of it).

## What is modelled

* `lib/translator/common.{h,cc}`: Span/subspan, ReadValue, WriteValue, SafePointerCast*, FillSenseBuffer, SetPages,
  AllocPages, DeallocPages, SetAllocPageCallbacks (as the environment of each call), endian helpers (both byte orders),
  DebugLog and ScsiOpcodeToString (`Model/Log.lean`: all 94 messages, formatting, printing).
* `lib/translator/{read,write,verify,synchronize_cache,unmap,report_luns,request_sense,read_capacity_10,maintenance_in,inquiry,mode_sense,status,translation}.cc`: all functions.
* `lib/scsi.h`, `third_party/spdk/nvme.h`: all structures the translator reads or writes, as bit layouts generated from the
  list of field widths; the offsets were also compared with the headers by a script, and C63 states them by byte position.
* `third_party/e2e/engine.cc`: ScsiToNvme, with an arbitrary NVMe device as a parameter.
* `third_party/e2e/util.c`: AllocPages/DeallocPages over an arbitrary kernel allocator.
* `third_party/e2e/nvme_driver.c`: the submission path (request allocation, mapping of the buffer, execution, copying the
  result, release of the request; in `Model/Request.lean` also direction, time-out, mapped buffer and reported status of every request) and nvme_driver_init; the hardware and the kernel functions are parameters that may fail
  at every step.
* `third_party/e2e/scsi_mock_module.c`: scsi_queuecommand, scsi_abort, bus_driver_probe, bus_remove, scsi_mock_init, scsi_mock_exit
  (with the ledger of acquired kernel objects as ghost state); with the namespace pointer of the driver as a parameter in
  `Model/Unopened.lean` (C107: null if no device was opened; all other theorems are about a driver which has a namespace).

Simplifications (also named in the comment of the definition concerned):

* The CDB and the Identify pages are read as one snapshot (above).
* `Span<NvmeCmdWrapper>` arguments of the MODE SENSE translators are the array of three of the object.
* Unused reference parameters (`Allocation&` of READ/WRITE) are dropped.
* `size_t` subtraction wraps (`sizeSub`); pointers are unbounded naturals, so `ptr + pos` does not wrap.
* memcpy of 0 bytes to a null pointer is a no-op.
* Indeterminate stack bytes and the uninitialised wrapper array are universally quantified values (`junk`, `ws`).
* `kfree` forgets a range whose size is known from the ghost trace of allocations.
* The scatter list of a SCSI request is one list of bytes; `sg_copy_from/to_buffer` copies a prefix of it.
* Kernel behaviour around binding (probe called on a matching device, remove called when a device is unregistered,
  reference counts of devices) is assumed as written in `Model/Lifecycle.lean`.
* `GoodAllocator` (used only where stated) says a granted range is fresh and mapped: an abstraction of a real heap.

## What is not modelled

* When a debug message is logged by functions other than `Begin` and `Complete` (all messages are listed in `Model/Log.lean`, C100; those executed by `Begin` and `Complete` are modelled in `Model/Messages.lean` and `Model/CompleteMessages.lean`, C115 and C116, beside the runs and not as part of them) and a debug callback with effects; `third_party/absl`; performance; what happens when a request times out
  (one of the failures of the hardware; the value handed to the block layer is modelled, C112).
* Concurrency: two threads on one Translation object, and interleavings finer than the steps of `Model/Concurrent.lean`
  and `Model/ModuleConcurrent.lean` (Begin, one submission, Complete, allocation with copy-in, copy-out with kfree are atomic steps there:
  C96–C99, C101–C106, C108, C109; a step touches memory that belongs to its call alone, the allocator, and the device; several objects with interleaved calls: C84).
* Strict aliasing, object lifetime rules and data races; alignment (all cast targets are packed, alignment 1).

## Property plan

Shapes: (A) characterisation: run of the modelled function equals an explicit result, then compared with the Spec;
(B) invariant by induction over API histories; (C) refinement to an abstract automaton/store; (D) refutation: a concrete
witness proving the negation, plus a `_partial` theorem for the part that holds.

| id | modelled / how proved |
|---|---|
| C01 | (C) `Translation` object vs automaton idle/pending(n), induction over the list of calls |
| C02 | (A) on Begin / Complete in the offending state |
| C03 | (B) invariant count <= 3, count = 0 when idle or rejected |
| C04 | (A)+(B) per opcode |
| C05 | (B) ghost trace of alloc/dealloc events, outstanding multiset = live allocations |
| C06 | (D) refuted for UNMAP/MODE SENSE(10) with an allocator answering zero-page requests; every allocator for histories without those two commands, or which never refuses a page (`C06_others_partial`); what can be lost otherwise is zero-page grants only |
| C07, C08 | (A) no-UB + frame for every opcode case |
| C09 | (A) frame for every back translation |
| C10 | (D) refuted (MODE SENSE(6) DBD=1 reads cpl_data[0] of an empty span; LBADS >= 32 shift); partial for the rest |
| C11, C12, C14, C16 | (A) on Complete |
| C13 | (A) finite table, compared with an independently written table |
| C15 | (D) refuted; partial states what is reported instead |
| C17 | (D) refuted: two stack contents, two sense buffers; partial: the meaningful fields are determined |
| C18-C20 | (A) vs Spec decoders of CDB and SQE |
| C21, C23 | (D) refuted above 65535 blocks / for short buffers; partial under the bound |
| C22, C24, C25 | (A) |
| C26 | (D) refuted: NSID is always 0 |
| C27 | (A) induction over descriptors |
| C28 | (D) refuted: every conforming UNMAP is rejected |
| C29 | (A)+(D): holds except Dataset Management |
| C30 | (A) VERIFY excepted |
| C31, C32 | relational (A); UNMAP excepted in C31; C32 refuted for FLUSH/COMPARE/GET FEATURES |
| C33-C44 | (A) vs independently written page contents; C37, C40, C42 refuted with witnesses, partial otherwise |
| C45 | (D) refuted: NSZE is reported |
| C46, C47 | (A) induction over the namespace list |
| C48-C51 | (A); C51 partial |
| C52, C53 | (D) |
| C54, C55 | (A) |
| C56-C58 | engine model over an arbitrary device, (B) + (D) for C58: the early return on a too long allocation length leaks |
| C59 | (C) refinement over histories to an abstract block store |
| C60-C64 | (A); C64 (D): lengths are announced for rejected commands too |
| C65 | (A)+(D): only Write/Dataset Management modify data; refuted by a malformed UNMAP replaying an earlier WRITE |
| C66 | (D) refuted (page code 83h, byte order of the rotation rate); partial for the length and the rest |
| C67 | (A) the dialog between engine and device, by induction over the submitted commands |
| C68 | (A) frame: completing READ/WRITE/... leaves memory alone |
| C69 | (A) exact equation for UNMAP through Begin, including the fall-through |
| C70, C71 | driver model, (B) over its request ledger; C71 (D): return codes are ignored |
| C72-C74 | module model over an arbitrary kernel allocator |
| C75 | (C)+(D): block store through scsi_queuecommand; refuted for transfers of 64 KiB and more |
| C76, C77 | (A) exact answer, iff-characterisation of the leak |
| C78, C79 | (A) Begin and Complete equal an independently written plan / reply function for every input |
| C80-C82 | (A) engine as a function of the device's answers; C81 (D): undefined behaviour exactly for some MODE SENSE commands (`traps`) |
| C83 | (C) histories of arbitrary commands over a generic storage device |
| C84 | (B) product of automata over arbitrary interleavings of objects |
| C85-C87 | (B)+(D) histories of load/bind/unbind/unload with a ledger of kernel objects |
| C88, C89 | (D) + exact characterisation |
| C90-C92 | (A) translators called directly, beyond what the dispatcher reaches |
| C93, C94 | (C) C83 and C82 carried through scsi_queuecommand, over any allocator of the kernel |
| C96, C97 | (B)+(C) small steps of ScsiToNvme (`Model/Concurrent.lean`); invariant: every call owns its buffers and pages, steps of one call leave what the others own alone; a linearization is extended at the submission of a READ or WRITE (else at Begin); atomicity, durability and read-your-writes follow from it |
| C98 | (B)+(C) the same invariant as C96, with, for every information command under way, what its Begin handed out and what the device left in its pages (`Tell`); C82 closes the call |
| C99 | (B)+(C) the invariant of C96 for any device which writes where commands let it (`Spec/Lossy.lean`: commands dropped, torn, answered with anything); a second invariant says where each disk byte comes from; the driver over any block layer is such a device |
| C100 | (A)+(D) all calls of DebugLog with the types of their arguments, extracted by a script (`Model/Log.lean`); a format/type check proved sound for every value, evaluated on the list of calls; refuted for the two calls with a mismatched argument |
| C101 | (B)+(C) small steps of scsi_queuecommand (`Model/ModuleConcurrent.lean`: allocate and copy in; steps of the engine; copy out, free and answer); `C101_alone` ties the steps to `scsi_queuecommand`; the invariant of C96 over a view in which a call without a buffer is a call of the engine with an empty one; the order is extended as for C96, or when memory is refused |
| C102 | from C101, by cutting the order at the WRITE and the READ |
| C103 | the module's interleaving is viewed as one of the engine's (`hstepped_of`), over which C98's account of a query is carried |
| C104 | invariant over the interleavings of C101: accessible memory was accessible at the beginning or belongs to a call; `Begin` makes accessible exactly the pages it records, `Complete` frees them, and by C78 an accepted command announces at most its allocation length |
| C105 | the interleavings of the module over the driver are simulated by those over the device (as C95), so that C101–C104 carry over; requests: every submission balances them |
| C106 | invariant over any interleaving, for any `Lossy` device: data buffers of WRITEs not yet submitted hold their lists; every submission changes disks only as the WRITE it belongs to says; memory as C104 |
| C107 | the namespace pointer as a parameter of the submission; false: a READ after loading without the device dereferences null; proved: exactly when that happens, and that nothing changes if the pointer is set |
| C108 | any device which reports success for a Read or Write only if it executed it (`Spec/Honest.lean`); the order of effect is the order of submission of the Read and Write commands, invariant over the steps as in C96, for any disks and any failures |
| C109 | the same for calls of the kernel module, with the steps of C101 (copy in, copy out) around those of the engine: the invariant of C101 for any disks, any outcomes; the driver is such a device over a reliable block layer |
| C110 | requests in detail (`Model/Request.lean`): what the block layer reports in `struct nvme_request` is kept apart from what it writes where `special` points; simulation with the model of the driver without requests; false: only the latter reaches the engine; proved: it holds if the block layer writes there, and what happens exactly if it does not |
| C111 | every executed request against the opcode's transfer bits and the data pointer, using the list of commands built (all commands other than UNMAP) |
| C112 | false: the engine passes 60 where jiffies are expected; proved: the time-out is 60 jiffies, 60 seconds only for HZ = 1 |
| C113 | false: `Complete` decodes the block again and may follow pointers of commands never built; proved: the return value never depends on it, unsuccessful commands do not need it, silent ones need the operation code only |
| C114 | exact list of allocator requests per call from the summary of `Begin`; invariant "at most two pages" over histories and interleavings |
| C115 | (A) the calls of DebugLog executed by `Begin`, function by function beside the model (`Model/Messages.lean`); specification of the texts (`Spec/Messages.lean`); exact equality for all commands; every executed call is in the catalogue; "complained about iff rejected" refuted (fall through), proved for the other commands |
| C116 | (A) the calls of DebugLog executed by `Complete`, function by function beside the model (`Model/CompleteMessages.lean`); specification of the texts (`Spec/CompleteMessages.lean`); exact equality for every run; every executed call is in the catalogue |
| C117 | (A) refuted by a REQUEST SENSE with a 4-byte buffer; the reply is proved built for buffers of at least 64 bytes under the named conditions on the pages |
| C118 | (A) the structures of scsi.h no function uses (`Model/ScsiOther.lean`, generated from the header); positions as in the standards (`Spec/ScsiOther.lean`, written by hand); proved bit by bit for all but three, which are refuted |
| C119 | (A) congruence of every translator in the bytes it reads (`Spec/Padding.lean`); (D) refuted for Begin with MODE SENSE(10), partial otherwise; full for Complete |
| C120 | (D) refuted: a WRITE aborted with success is executed nevertheless; `C120_ignored`: it goes on as if not aborted; partial once all commands are submitted (`Model/Abort.lean`, steps of `Model/ModuleConcurrent.lean`) |
| C121 | (E) a device with a write cache is one more disk, what is left of it when the power fails (`Spec/Cache.lean`); invariant along the schedule from the Flush (or the Write with FUA) on, data from C108_durable; that data are lost without either: concrete executions `store_lost`, `store_failed` |
| C122 | (E) the invariant of C121 carried through the steps of scsi_queuecommand; data from C109_durable |
| C123 | (E) C121/C122, then induction over the power failures (`Spec/Restart.lean`); within one history C108/C109 from any state of the disks |
| C124 | (E) `WriteBack` (`Spec/Aging.lean`): a stored byte is always one which commands saw; induction over the interleaving from the storing command to the power failure, then the order of effects of C108/C109 for what the byte can be |
| C125 | (E) `Committing` (`Spec/ReadThrough.lean`): a device which stores what it reads with FUA; the READ's FUA bit reaches byte 51 of the Read; induction over the interleaving from its submission, then the order of effects of C108/C109 for what it delivers |
| C126 | (E) by cases on whether the call that overwrites the data has taken a step at the power failure: if not, nothing that took a step writes the data, which stay stored; if so, the schedule splits where it and the SYNCHRONIZE CACHE begin, and C121/C122 apply to the record; then the recovery argument of C123; that the SYNCHRONIZE CACHE is needed: a run of the write-cached device, evaluated by the kernel |
| C95 | (C) simulation: the driver over a reliable block layer is a storage device, hence C93 holds of the whole stack; ledger of requests by induction |

## Findings

Each is a theorem about the model (named) whose model definition cites the code.

1. Every conforming UNMAP is rejected: the missing `break` runs MODE SENSE(6) on the UNMAP command block (C28). With reserved
   bits set it is accepted and the MODE SENSE(6) outcome decides; a previous WRITE may be replayed (C65, C69).
2. MODE SENSE(10) with 10 bytes is always rejected; with 12 bytes it is handled as REPORT LUNS and completing it can flow off the
   end of a function (C10, C52).
3. MAINTENANCE IN submits Identify (namespace list); its own validation result is overwritten (C53).
4. MODE SENSE(6) with DBD = 1 and the control/power page reads `cpl_data[0]` of an empty span; LBADS >= 32 is an over-wide shift
   (C10). With DBD = 0 the write-cache bit is taken from the completion of Identify (C51).
5. VERIFY goes to namespace 0 without data pointer (C26); WRITE does not check the buffer and truncates the block count (C21, C23).
6. READ CAPACITY reports NSZE instead of the last LBA (C45), and a block length unrelated to the one READ uses (C88).
7. PRP entry 2 is never set: only single page-aligned blocks are completely described (C89).
8. VPD pages: lengths in the wrong byte order (86h, b0h, b1h), page code of b1h, header of 83h, SPT table with swapped bits, serial
   numbers with leading zero digits wrong and leaking stack bytes (C36-C42, C66, C76, C77).
9. Results of the back translation are ignored: GOOD with nothing written (C15, C117); the reply of MAINTENANCE IN is dropped without a message (C116). Reserved sense bits are uninitialised (C17).
10. The engine leaks pages when the announced length exceeds the buffer (C58), returns 40h instead of a CHECK CONDITION for a READ
    with a short buffer (C80), and ignores the driver's return codes: lost WRITEs and stale READs reported GOOD (C71).
11. scsi_queuecommand truncates the buffer length to 16 bits (C75); the result of nvme_driver_init is ignored (C86), the first command then dereferences null (C107); the block device
    handle is never released, a device reference leaks on a failed registration (C85); rebinding is impossible (C87).
12. Dataset Management is sent to the admin queue (C29). buffer_len of Flush/Compare/Get Features is left over (C32).
13. Freed pages depend on the allocator answering 0 to empty requests (C06).
14. Two debug messages pass a `size_t` and a scoped enumeration for `%u` (C100); the kernel's Print uses messages as formats, which is
    harmless only because no message contains a `%` (C100).
15. nvme_driver.c prints the status in `struct nvme_request` and does not hand it on: if the block layer does not write where
    `request->special` points, every accepted command is answered with GOOD whatever the device says (C110; whether the
    kernels the README asks for write there is not part of the model).
    Its message for Linux errors is never printed, the status being unsigned (C110). The time-out is 60 jiffies (C112).
16. `Complete` reads the command block again: a caller which reuses it after `Begin` gets another response or undefined
    behaviour (C113).
17. The unused structure for REPORT TIMESTAMP lacks the byte of the service action, those for command descriptors the operation code (C118).
18. MODE SENSE(10) is rejected in a command block of 10 bytes and executed as REPORT LUNS in one of 12 or more (C119).
19. The module's abort handler reports success without aborting: the command goes on, and a WRITE still reaches the device (C120).

The status per property is in MANIFEST.json; wrong programs tried against the theorems are in seeded/LOG.jsonl.
