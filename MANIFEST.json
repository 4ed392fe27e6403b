{
 "claims": [
  {
   "property": "C01",
   "status": "proved",
   "theorems": [
    "Scsi2Nvme.C01_protocol"
   ],
   "note": "[C01_protocol] C01. Every history of calls on a fresh object behaves as the automaton allowed says."
  },
  {
   "property": "C02",
   "status": "proved",
   "theorems": [
    "Scsi2Nvme.C02_begin_refused",
    "Scsi2Nvme.C02_complete_refused"
   ],
   "note": "[C02_begin_refused] C02. After any history: while a command is pending, Begin returns a failure with length 0 and changes neither the object nor the world (memory, allocator calls). [C02_complete_refused] C02. After any history: while the object is idle, Complete returns a failure with status 0 and changes neither the object nor the world."
  },
  {
   "property": "C03",
   "status": "proved",
   "theorems": [
    "Scsi2Nvme.C03_command_list"
   ],
   "note": "[C03_command_list] C03. After any history the command list has at most three entries (the array has three elements, and the list is as long as the stored count says), and it is empty if the object is idle or the last command was not translated."
  },
  {
   "property": "C04",
   "status": "proved",
   "theorems": [
    "Scsi2Nvme.C04_command_count"
   ],
   "note": "[C04_command_count] C04. Number of commands of an accepted command: two for INQUIRY; one for READ, WRITE, VERIFY(10), SYNCHRONIZE CACHE(10), READ CAPACITY(10), REPORT LUNS; none for TEST UNIT READY and REQUEST SENSE; for MODE SENSE(6) one if block descriptors are requested (DBD = 0) plus one if the caching page is."
  },
  {
   "property": "C05",
   "status": "proved",
   "theorems": [
    "Scsi2Nvme.C05_balance",
    "Scsi2Nvme.C05_pending"
   ],
   "note": "[C05_balance] C05. With an allocator that answers 0 to a zero-page request the accounting is balanced. [C05_pending] C05. While a command is pending, what is outstanding beyond the start are exactly the page ranges the object has recorded for the pending commands (so they are available to be handed back)."
  },
  {
   "property": "C06",
   "status": "partial",
   "theorems": [
    "Scsi2Nvme.C06_no_double_free_partial",
    "Scsi2Nvme.C06_pages_balance_partial",
    "Scsi2Nvme.C06_refuted",
    "Scsi2Nvme.C06_others_partial"
   ],
   "note": "The full statement is false of the code (refuted in Lean with a concrete run). MODE SENSE(10) falls through to REPORT LUNS and overwrites an allocation record. Proved for every allocator: no page (range of at least one page) is ever lost, no double free, nothing freed that was not allocated. Balance under allocators answering 0 to empty requests is C05 (proved). [C06_no_double_free_partial] C06 (partial). For every allocator: nothing is handed back that is not outstanding, and no page that was outstanding at the start is handed back. Missing: that nothing is lost, which is false, see C06_refuted. [C06_pages_balance_partial] C06 (partial). For every allocator: when the object is idle, exactly the ranges of at least one page that were outstanding at the start are outstanding again. What can get lost are answers to requests for no pages. [C06_refuted] C06 is false. There is an allocator for which a history ends idle with a page range lost: the fall-through from MODE SENSE(10) to REPORT LUNS overwrites an allocation record. [C06_others_partial] C06 (partial). For every allocator, whatever it answers: in every history without UNMAP and MODE SENSE(10) - and in every history whatsoever if the allocator refuses no page - every range is handed back: when the object is idle exactly the ranges outstanding at the start are outstanding again. Missing: UNMAP or MODE SENSE(10) after a refusal, see C06_refuted."
  },
  {
   "property": "C07",
   "status": "proved",
   "theorems": [
    "Scsi2Nvme.C07_begin_safe"
   ],
   "note": "[C07_begin_safe] C07. Begin is defined in every memory in which the command block and the data buffer are accessible (nothing else needs to be), for every object reached by any history, every content, every LUN and every outcome of a well-behaved allocator."
  },
  {
   "property": "C08",
   "status": "proved",
   "theorems": [
    "Scsi2Nvme.C08_begin_frame"
   ],
   "note": "[C08_begin_frame] C08. Begin changes no byte that was accessible before the call (the pages it allocates were not)."
  },
  {
   "property": "C09",
   "status": "proved",
   "theorems": [
    "Scsi2Nvme.C09_complete_frame"
   ],
   "note": "[C09_complete_frame] C09. Complete changes no byte outside of the data-in buffer, the sense buffer and the pages it hands back to the allocator during the call (evs are the callback calls made by Complete, all of them deallocations)."
  },
  {
   "property": "C10",
   "status": "partial",
   "theorems": [
    "Scsi2Nvme.C10_complete_safe_partial",
    "Scsi2Nvme.C10_exact_partial",
    "Scsi2Nvme.C10_control_page",
    "Scsi2Nvme.C10_refuted"
   ],
   "note": "The full statement is false of the code (refuted in Lean with a concrete run). C10_exact_partial is an if-and-only-if: it names every case with undefined behaviour and proves there is no other. [C10_complete_safe_partial] C10, the part that holds: Complete has no undefined behaviour, whatever the completions, the contents of the pages and the buffer sizes are, except for MODE SENSE outside of Benign. [C10_exact_partial] C10, exactly what holds: Complete has undefined behaviour if and only if the command was accepted, there is a successful completion for each of its NVMe commands, and one of the five cases of Faulty applies. [C10_control_page] MODE SENSE(6) for the control page with DBD = 1, which is accepted and needs no NVMe command: Complete looks at the first of no completions."
  },
  {
   "property": "C11",
   "status": "proved",
   "theorems": [
    "Scsi2Nvme.C11_rejected"
   ],
   "note": "[C11_rejected] C11. If Begin could not translate a command there are no NVMe commands to run, and Complete (with no completions) reports CHECK CONDITION, ILLEGAL REQUEST, INVALID FIELD IN CDB; only the sense buffer changes."
  },
  {
   "property": "C12",
   "status": "proved",
   "theorems": [
    "Scsi2Nvme.C12_image",
    "Scsi2Nvme.C12_first_error"
   ],
   "note": "[C12_image] C12, with the completions as images: the status reported is that of the first entry whose status field is not 0. [C12_first_error] C12. If the device failed some NVMe command, Complete reports the translated status of the first failing one; only the sense buffer changes."
  },
  {
   "property": "C13",
   "status": "proved",
   "theorems": [
    "Scsi2Nvme.C13_status_table",
    "Scsi2Nvme.C13_api"
   ],
   "note": "[C13_status_table] C13. The translation of a status code type and status code is the one of the table: SCSI status, sense key, additional sense code and qualifier; CHECK CONDITION with NO SENSE for pairs not in the table. [C13_api] C13, at the interface: the device answers the only NVMe command of a SCSI command with an arbitrary status; Complete returns the SCSI status of the table."
  },
  {
   "property": "C14",
   "status": "proved",
   "theorems": [
    "Scsi2Nvme.C14_image",
    "Scsi2Nvme.C14_good_iff"
   ],
   "note": "[C14_image] C14, with the completions as images: GOOD exactly if the command was accepted and every status field is 0. [C14_good_iff] C14. For an accepted command and one completion per NVMe command, Complete succeeds, and the status is GOOD exactly if every completion has status code type 0 and status code 0. For a rejected command it is never GOOD."
  },
  {
   "property": "C15",
   "status": "partial",
   "theorems": [
    "Scsi2Nvme.C15_reported_partial",
    "Scsi2Nvme.C15_unreported",
    "Scsi2Nvme.C15_unsupported_page",
    "Scsi2Nvme.C15_unusable_identify_data",
    "Scsi2Nvme.C15_small_buffer",
    "Scsi2Nvme.C15_refuted"
   ],
   "note": "The full statement is false of the code (refuted in Lean with a concrete run). What is reported instead is settled by C15_unreported (GOOD always) and, with the exact bytes, by C79 (proved). [C15_reported_partial] C15, the part that holds: a command which could not be translated, or which the device did not execute, does not end with GOOD, whatever the buffers are. What is missing: failures to produce the answer afterwards, see C15_unreported. [C15_unreported] Otherwise it always does: no failure to produce the answer is reported. [C15_unsupported_page] A VPD page which is not supported: GOOD and no data, whatever the size of the buffer. [C15_unusable_identify_data] A device which reports a logical block size READ CAPACITY cannot express: GOOD and no data, whatever the size of the buffer. [C15_small_buffer] A buffer too small for the data of READ CAPACITY: GOOD and no data. [C15_refuted] C15 does not hold, for example for READ CAPACITY(10) on a device which reports a block length of 1."
  },
  {
   "property": "C16",
   "status": "proved",
   "theorems": [
    "Scsi2Nvme.C16_sense"
   ],
   "note": "[C16_sense] C16. Whenever Complete returns a status other than GOOD, it reports sense data for some status s: the 8 bytes of descriptor format sense data are placed at the start of the sense buffer if it has at least 8 bytes, and nothing is written otherwise. s is the rejection status for rejected commands and the translated status of a failing completion for the others."
  },
  {
   "property": "C17",
   "status": "partial",
   "theorems": [
    "Scsi2Nvme.C17_sense_determined_partial",
    "Scsi2Nvme.C17_refuted"
   ],
   "note": "The full statement is false of the code (refuted in Lean with a concrete run). Only reserved bits are undetermined; the exact eight bytes as a function of status and stack contents are part of C79 (proved). [C17_sense_determined_partial] C17, the part that holds: the response code, the sense key, the additional sense code and its qualifier and the additional length are determined by the status. What is missing are the reserved bits: bit 7 of byte 0, bits 4-7 of byte 1 and bytes 4 to 6. [C17_refuted] C17 does not hold: the reserved bits of the sense data are uninitialised stack memory."
  },
  {
   "property": "C18",
   "status": "proved",
   "theorems": [
    "Scsi2Nvme.C18_read"
   ],
   "note": "[C18_read] C18. READ(6/10/12/16) translation: an accepted READ yields exactly one command, for the I/O queue: the NVMe Read with the LBA, block count, FUA and protection bits of the command block, the namespace of the LUN, and the address of the data buffer; the announced lengths are the block count times 4096. No page is allocated, memory is unchanged."
  },
  {
   "property": "C19",
   "status": "proved",
   "theorems": [
    "Scsi2Nvme.C19_read_accepted"
   ],
   "note": "[C19_read_accepted] C19. READ acceptance: a READ is accepted exactly if the command block is complete, the protection code is at most 5, the block count is between 1 and 65535 and the data buffer can hold the blocks."
  },
  {
   "property": "C20",
   "status": "proved",
   "theorems": [
    "Scsi2Nvme.C20_read_fits"
   ],
   "note": "[C20_read_fits] C20. READ never overruns the buffer: the number of bytes the device will transfer, computed from the emitted command (number of blocks, 0's based, in bytes 48-49), is the announced length and fits in the caller's buffer."
  },
  {
   "property": "C21",
   "status": "partial",
   "theorems": [
    "Scsi2Nvme.C21_write_all",
    "Scsi2Nvme.C21_write_partial",
    "Scsi2Nvme.C21_refuted"
   ],
   "note": "The full statement is false of the code (refuted in Lean with a concrete run). Block counts of WRITE(12)/(16) are truncated modulo 65536 (C21_write_all gives the exact command for every count; also part of C78). [C21_write_all] WRITE, every accepted command: the block count of the command is taken modulo 65536; a multiple of 65536 turns command dword 12 into FFFFFFFFh. [C21_write_partial] C21 for block counts up to 65535 (all WRITE(6) and WRITE(10)); the missing part, larger counts of WRITE(12) and WRITE(16), is false: C21_refuted. [C21_refuted] C21 does not hold: a WRITE(12) of 65537 blocks is accepted and becomes an NVMe Write of one block."
  },
  {
   "property": "C22",
   "status": "proved",
   "theorems": [
    "Scsi2Nvme.C22_write_accepted"
   ],
   "note": "[C22_write_accepted] C22. WRITE acceptance: a WRITE is accepted exactly if the command block is complete, the protection code is at most 5 and the block count is not zero."
  },
  {
   "property": "C23",
   "status": "partial",
   "theorems": [
    "Scsi2Nvme.C23_refuted",
    "Scsi2Nvme.C23_write_fits_partial"
   ],
   "note": "The full statement is false of the code (refuted in Lean with a concrete run). WRITE does not look at the buffer length. [C23_refuted] C23 does not hold: a WRITE(10) of two blocks with a data-out buffer of one block is accepted. [C23_write_fits_partial] C23, what does hold: the device fetches what the command block asks for, so the transfer stays inside every data-out buffer that holds the requested blocks (at most 65535). The library itself does not check."
  },
  {
   "property": "C24",
   "status": "proved",
   "theorems": [
    "Scsi2Nvme.C24_sync"
   ],
   "note": "[C24_sync] C24. SYNCHRONIZE CACHE(10) is always accepted, whatever follows the operation code; it yields exactly one command for the I/O queue, the NVMe Flush of the LUN's namespace with every other byte zero."
  },
  {
   "property": "C25",
   "status": "proved",
   "theorems": [
    "Scsi2Nvme.C25_verify"
   ],
   "note": "[C25_verify] C25. VERIFY(10) is accepted exactly if the command block is complete, the length is not zero and NACA is 0; it then yields exactly one command for the I/O queue, the NVMe Compare with the LBA and block count of the command block and the protection checks for BYTCHK and VRPROTECT. (The namespace id, here 0, is C26.)"
  },
  {
   "property": "C26",
   "status": "partial",
   "theorems": [
    "Scsi2Nvme.C26_verify_namespace_partial",
    "Scsi2Nvme.C26_refuted"
   ],
   "note": "The full statement is false of the code (refuted in Lean with a concrete run). The namespace id is always 0 (exact: C26_verify_namespace_partial). [C26_verify_namespace_partial] What happens instead: every VERIFY(10) addresses namespace 0, which is correct only for the LUNs whose namespace id is 0, i.e. never for a LUN below FFFFFFFFh. [C26_refuted] C26 does not hold: VERIFY(10) on LUN 4 addresses namespace 0, not 5."
  },
  {
   "property": "C27",
   "status": "proved",
   "theorems": [
    "Scsi2Nvme.C27_unmap"
   ],
   "note": "[C27_unmap] C27. The UNMAP translator, on any parameter list (any number of descriptors, any contents) and with any well-behaved allocator. It succeeds exactly if the command and its parameter list are as documented (unmapRequest) and the page was granted; then the page holds one dataset management range per block descriptor, in order, with the LBA and block count of the descriptor, and the command is Dataset Management / Deallocate for that many ranges and that page, of the given namespace, with the page as its buffer."
  },
  {
   "property": "C28",
   "status": "partial",
   "theorems": [
    "Scsi2Nvme.C28_conforming_rejected",
    "Scsi2Nvme.C28_refuted",
    "Scsi2Nvme.C28_unmap_partial"
   ],
   "note": "The full statement is false of the code (refuted in Lean with a concrete run). Because of a missing break every conforming UNMAP is rejected (C28_conforming_rejected, for all parameter lists); exactly which UNMAP blocks are accepted and what is handed out is C69 (proved). The translator function itself is right: C27 (proved). [C28_conforming_rejected] Every UNMAP command whose reserved byte 2 is zero is rejected, whatever its parameter list. [C28_refuted] C28 does not hold: the conforming UNMAP of two ranges is rejected. [C28_unmap_partial] C28, what does hold: with bit 3 of byte 1 set and the page code 0Ah or 1Ah in byte 2 (both reserved in an UNMAP command) the command is translated as it should be, except for the queue (see C29)."
  },
  {
   "property": "C29",
   "status": "partial",
   "theorems": [
    "Scsi2Nvme.C29_routing_partial",
    "Scsi2Nvme.C29_refuted"
   ],
   "note": "The full statement is false of the code (refuted in Lean with a concrete run). Only UNMAP (which falls through into MODE SENSE(6)) is excepted, and covered exactly by C69 and C78. [C29_routing_partial] C29, proved for every command other than UNMAP. [C29_refuted] C29 does not hold: the Dataset Management command of an (odd) UNMAP is flagged for the admin queue."
  },
  {
   "property": "C30",
   "status": "partial",
   "theorems": [
    "Scsi2Nvme.C30_namespace_partial",
    "Scsi2Nvme.C30_distinct_partial",
    "Scsi2Nvme.C30_refuted"
   ],
   "note": "The full statement is false of the code (refuted in Lean with a concrete run). Excepted are VERIFY(10) (namespace 0, C26) and UNMAP (C69). [C30_namespace_partial] C30, proved for every command other than VERIFY(10) and UNMAP. [C30_distinct_partial] C30, consequence: commands translated for different LUNs never address the same namespace. [C30_refuted] C30 does not hold: VERIFY(10) on LUN 4 addresses namespace 0."
  },
  {
   "property": "C31",
   "status": "partial",
   "theorems": [
    "Scsi2Nvme.C31_history_independent_partial",
    "Scsi2Nvme.C31_refuted"
   ],
   "note": "The full statement is false of the code (refuted in Lean with a concrete run). Excepted is UNMAP: its first command slot may be left over from an earlier command; exact: C69, C78 (the function of C78 has the old slots as an argument). [C31_history_independent_partial] C31, proved for every command other than UNMAP. [C31_refuted] C31 does not hold: on a fresh object the malformed UNMAP hands out something else."
  },
  {
   "property": "C32",
   "status": "partial",
   "theorems": [
    "Scsi2Nvme.C32_buffer_len_partial",
    "Scsi2Nvme.C32_refuted",
    "Scsi2Nvme.C32_leftover_partial"
   ],
   "note": "The full statement is false of the code (refuted in Lean with a concrete run). The lengths of Flush, Compare and Get Features are left over; exact: C32_leftover_partial, C78. [C32_buffer_len_partial] C32, proved for READ, WRITE, INQUIRY, READ CAPACITY(10), REPORT LUNS, MAINTENANCE IN and MODE SENSE(10). (Missing: SYNCHRONIZE CACHE(10), VERIFY(10), MODE SENSE(6), UNMAP, whose lengths are left over from earlier commands.) [C32_refuted] C32 does not hold: the buffer length of the Flush is whatever was in the object before. [C32_leftover_partial] C32, the commands for which it fails: the buffer lengths of Flush (SYNCHRONIZE CACHE) and Compare (VERIFY) are what the first command slot held before; so is, for MODE SENSE(6), the length of Get Features with the slot it comes to lie in (Identify, in the first slot if there is one, has 4096)."
  },
  {
   "property": "C33",
   "status": "proved",
   "theorems": [
    "Scsi2Nvme.C33_inquiry",
    "Scsi2Nvme.C33_inquiry_accepted",
    "Scsi2Nvme.C33_inquiry_pages"
   ],
   "note": "[C33_inquiry] C33. INQUIRY commands: an accepted INQUIRY yields Identify Namespace (CNS 0) of the LUN's namespace into one page and Identify Controller (CNS 1) into another page, both for the admin queue, and announces the big endian allocation length of bytes 3-4. [C33_inquiry_accepted] C33, acceptance: INQUIRY is accepted exactly if the command block is complete and both pages were granted. [C33_inquiry_pages] C33, pages: with a well-behaved allocator the two pages are disjoint, were not accessible before the call and are accessible after it."
  },
  {
   "property": "C34",
   "status": "proved",
   "theorems": [
    "Scsi2Nvme.C34_standard_inquiry",
    "Scsi2Nvme.C34_length"
   ],
   "note": "[C34_standard_inquiry] C34. Standard INQUIRY (EVPD = 0): the 36 bytes of standardInquiry are written to the data buffer, and nothing else, if it has at least 36 bytes; otherwise nothing is written. [C34_length] 36 bytes."
  },
  {
   "property": "C35",
   "status": "partial",
   "theorems": [
    "Scsi2Nvme.C35_page_list",
    "Scsi2Nvme.C35_unlisted",
    "Scsi2Nvme.C35_refuted"
   ],
   "note": "The full statement is false of the code (refuted in Lean with a concrete run). Page 86h is listed but not answered if DPC = 0. Exact answers of all VPD pages for all buffers: C76 (proved). [C35_page_list] C35, the page list: VPD page 00h is written completely if the buffer has at least 11 bytes, its 4-byte head alone if it has at least 4, nothing otherwise. [C35_unlisted] C35, other pages: a request for a page not in the list changes nothing. [C35_refuted] C35 does not hold: page 86h is listed but not answered for a namespace without protection information."
  },
  {
   "property": "C36",
   "status": "partial",
   "theorems": [
    "Scsi2Nvme.C36_serial_partial",
    "Scsi2Nvme.C36_refuted"
   ],
   "note": "The full statement is false of the code (refuted in Lean with a concrete run). Identifiers with leading zero digits are not padded correctly. Exact bytes for all identifiers: C76; exactly when stack bytes leak: C77 (both proved). [C36_serial_partial] C36, the part that holds: the serial number page is correct if the identifier has no leading zero digits (fullDigits); buffers of 4 to 43 bytes receive the head only, smaller ones nothing. What is missing: identifiers with leading zeros, which are formatted wrongly. [C36_refuted] C36 does not hold: an EUI-64 with leading zero digits is not printed with 16 digits."
  },
  {
   "property": "C37",
   "status": "partial",
   "theorems": [
    "Scsi2Nvme.C37_serial_determined_partial",
    "Scsi2Nvme.C37_refuted"
   ],
   "note": "The full statement is false of the code (refuted in Lean with a concrete run). C77 (proved) is the exact condition for the leak. [C37_serial_determined_partial] C37, the part that holds: page 80h does not depend on the contents of the stack if every number it is made of has at least 15 significant hexadecimal digits (or there is no identifier). What is missing: numbers below 16^14, for which bytes of the stack are returned to the initiator. [C37_refuted] C37 does not hold: of the EUI-64 123h, seven bytes of the serial number are stack contents."
  },
  {
   "property": "C38",
   "status": "partial",
   "theorems": [
    "Scsi2Nvme.C38_device_id_partial",
    "Scsi2Nvme.C38_refuted"
   ],
   "note": "The full statement is false of the code (refuted in Lean with a concrete run). The header has 3 bytes. Exact bytes: C76 (proved). [C38_device_id_partial] C38, the part that holds: the designator for the right identifier is written, and nothing if there is no identifier or no room. What is missing: the head has 3 bytes instead of 4, so the designator is found at byte 3, and the length it contains is one less than the length of the designator. [C38_refuted] C38 does not hold."
  },
  {
   "property": "C39",
   "status": "partial",
   "theorems": [
    "Scsi2Nvme.C39_extended_inquiry_partial",
    "Scsi2Nvme.C39_refuted"
   ],
   "note": "The full statement is false of the code (refuted in Lean with a concrete run). Nothing is written when DPC = 0. Exact: C76 (proved). [C39_extended_inquiry_partial] C39, the part that holds: the content of page 86h is as prescribed for every namespace which supports protection information. What is missing: the page is not written at all for a namespace which does not. [C39_refuted] C39 does not hold: nothing is written for a namespace without protection information."
  },
  {
   "property": "C40",
   "status": "partial",
   "theorems": [
    "Scsi2Nvme.C40_spt_partial",
    "Scsi2Nvme.C40_refuted"
   ],
   "note": "The full statement is false of the code (refuted in Lean with a concrete run). The table has its bits in swapped order. Exact: C76 (proved). [C40_spt_partial] C40, the part that holds: the SPT field is right if the namespace supports both or none of the types 1 and 3. What is missing: for all other sets the types 1 and 3 are confused. [C40_refuted] C40 does not hold: type 1 is reported as type 3."
  },
  {
   "property": "C41",
   "status": "proved",
   "theorems": [
    "Scsi2Nvme.C41_block_limits"
   ],
   "note": "[C41_block_limits] C41. Page B0h: if the buffer has at least 64 bytes, the limits are written to bytes 4-63 (after a head, see C42), and nothing else; otherwise nothing."
  },
  {
   "property": "C42",
   "status": "partial",
   "theorems": [
    "Scsi2Nvme.C42_heads_partial",
    "Scsi2Nvme.C42_refuted"
   ],
   "note": "The full statement is false of the code (refuted in Lean with a concrete run). The lengths of 86h, B0h, B1h are stored little endian, B1h has code 83h, 83h has a 3-byte head. Exact: C76 (proved). [C42_heads_partial] C42, the part that holds: pages 00h, 80h, B2h and all unlisted pages. What is missing: the heads of the pages 83h, 86h, B0h and B1h are wrong. [C42_refuted] C42 does not hold: the length of page B0h is 3C00h instead of 003Ch."
  },
  {
   "property": "C43",
   "status": "proved",
   "theorems": [
    "Scsi2Nvme.C43_provisioning"
   ],
   "note": "[C43_provisioning] C43. Page B2h: if the buffer has at least 64 bytes, the 8 bytes of provisioningPage are written, followed by 56 zero bytes, and nothing else; otherwise nothing."
  },
  {
   "property": "C44",
   "status": "proved",
   "theorems": [
    "Scsi2Nvme.C44_read_capacity_data",
    "Scsi2Nvme.C44_read_capacity_commands"
   ],
   "note": "[C44_read_capacity_data] C44. READ CAPACITY(10): if the LBA data size of the namespace is 2^9 to 2^31 and the buffer has at least 8 bytes, the size in blocks (at most FFFFFFFFh) and the block length are written, big endian, and nothing else; otherwise nothing. [C44_read_capacity_commands] READ CAPACITY(10) commands (used by C44): accepted exactly if the command block is complete, NACA is 0 and the page was granted; it then yields Identify Namespace of the LUN's namespace."
  },
  {
   "property": "C45",
   "status": "partial",
   "theorems": [
    "Scsi2Nvme.C45_last_lba_partial",
    "Scsi2Nvme.C45_refuted"
   ],
   "note": "The full statement is false of the code (refuted in Lean with a concrete run). NSZE is returned, not NSZE - 1. The exact eight bytes: C44 (proved). [C45_last_lba_partial] C45, the part that holds: namespaces of 2^32 blocks and more. What is missing: for all smaller ones the number of blocks is returned instead of the last address. [C45_refuted] C45 does not hold: 1000h instead of 0FFFh is returned."
  },
  {
   "property": "C46",
   "status": "partial",
   "theorems": [
    "Scsi2Nvme.C46_report_luns_commands",
    "Scsi2Nvme.C46_report_luns_exact",
    "Scsi2Nvme.C46_report_luns_data_partial",
    "Scsi2Nvme.C46_refuted"
   ],
   "note": "The full statement is false of the code (refuted in Lean with a concrete run). Only buffers of 4 GiB and more are excepted, where the room is counted modulo 2^32 (C46_report_luns_exact gives all sizes). [C46_report_luns_commands] REPORT LUNS commands (used by C46): accepted exactly if the command block is complete, SELECT REPORT is 0, 1 or 2 and the page was granted; it then yields Identify with CNS 2 (active namespace list). [C46_report_luns_exact] C46, every buffer size: what the translator returns exactly. The room behind the head is counted modulo 2^32. [C46_report_luns_data_partial] C46, the part that holds: buffers of less than 2^32 + 8 bytes. [C46_refuted] C46 does not hold: three namespaces and a buffer of 2^32 + 8 bytes, and the list returned is empty."
  },
  {
   "property": "C47",
   "status": "partial",
   "theorems": [
    "Scsi2Nvme.C47_round_trip_partial",
    "Scsi2Nvme.C47_lun_of_nsid",
    "Scsi2Nvme.C47_refuted"
   ],
   "note": "The full statement is false of the code (refuted in Lean with a concrete run). Excepted are VERIFY(10) and UNMAP (see C30). [C47_round_trip_partial] C47, the part that holds: all commands other than VERIFY(10) and UNMAP. [C47_lun_of_nsid] C47 for the number alone: the LUN reported for any namespace id stands for that namespace. [C47_refuted] C47 does not hold: VERIFY(10) for the LUN reported for namespace 1 addresses namespace 0."
  },
  {
   "property": "C48",
   "status": "proved",
   "theorems": [
    "Scsi2Nvme.C48_request_sense_begin",
    "Scsi2Nvme.C48_request_sense_data"
   ],
   "note": "[C48_request_sense_begin] C48, Begin: REQUEST SENSE is accepted exactly if the command block is complete and NACA (bit 2 of byte 5) is 0; it needs no NVMe command and no page, and announces the allocation length in byte 4. [C48_request_sense_data] C48, Complete: REQUEST SENSE returns GOOD status and writes the sense data \"no sense\", in descriptor format (8 bytes) if DESC (bit 0 of byte 1) is set and in fixed format (18 bytes) otherwise, and nothing else. If the buffer is smaller nothing is written."
  },
  {
   "property": "C49",
   "status": "proved",
   "theorems": [
    "Scsi2Nvme.C49_mode_sense6"
   ],
   "note": "[C49_mode_sense6] C49. MODE SENSE(6) commands. It is accepted exactly if the command block is complete, the page is one of 08h, 0Ah, 1Ah, 3Fh, the page control is not \"saved\" when the caching page is asked for, and the page for Identify was granted when block descriptors are wanted (DBD = 0). It then yields Identify Namespace of the LUN's namespace (with a buffer of one page) if DBD = 0, followed by Get Features (volatile write cache) if the caching page is asked for, all for the admin queue."
  },
  {
   "property": "C50",
   "status": "proved",
   "theorems": [
    "Scsi2Nvme.C50_mode_sense_pages",
    "Scsi2Nvme.C50_mode_sense_data",
    "Scsi2Nvme.C50_mode_data_length",
    "Scsi2Nvme.C50_mode_sense_all"
   ],
   "note": "[C50_mode_sense_pages] C50, DBD = 1: GOOD status; the header and the mode pages asked for are written, as many of them as fit, and nothing else. WCE is taken from the first completion. [C50_mode_sense_data] C50, DBD = 0: header, short block descriptor and mode pages. [C50_mode_data_length] C50: the mode data length (byte 0 of the answer) is the number of the bytes that follow. [C50_mode_sense_all] C50, large buffers (96 bytes): everything is written."
  },
  {
   "property": "C51",
   "status": "partial",
   "theorems": [
    "Scsi2Nvme.C51_wce_first_partial",
    "Scsi2Nvme.C51_wce_partial",
    "Scsi2Nvme.C51_refuted"
   ],
   "note": "The full statement is false of the code (refuted in Lean with a concrete run). With DBD = 0 the bit is taken from the completion of Identify instead of Get Features (C51_wce_first_partial is exact). [C51_wce_first_partial] What is reported: bit 0 of the result of the first NVMe command. [C51_wce_partial] C51, the part that holds: DBD = 1, where Get Features is the only NVMe command. [C51_refuted] C51 does not hold: the write cache is on, Get Features says so, and WCE = 0 is reported."
  },
  {
   "property": "C52",
   "status": "partial",
   "theorems": [
    "Scsi2Nvme.C52_mode_sense10_rejected",
    "Scsi2Nvme.C52_refuted",
    "Scsi2Nvme.C52_mode_sense10_exact_partial"
   ],
   "note": "The full statement is false of the code (refuted in Lean with a concrete run). Through a missing break every 10-byte MODE SENSE(10) is rejected; what longer blocks do is C52_mode_sense10_exact_partial (exact). [C52_mode_sense10_rejected] What happens instead: every MODE SENSE(10) command of the standard length (any shorter than 12 bytes) is rejected. [C52_refuted] C52 does not hold. [C52_mode_sense10_exact_partial] C52, what MODE SENSE(10) does, exactly. It is accepted exactly if the command block has at least 12 bytes, byte 2 is at most 2 and the page is granted, and then only if DBD is set or the page MODE SENSE asked for first was refused; it then hands out what REPORT LUNS would: one Identify (active namespace list), with the allocation length of bytes 6-9."
  },
  {
   "property": "C53",
   "status": "partial",
   "theorems": [
    "Scsi2Nvme.C53_maintenance_in_partial",
    "Scsi2Nvme.C53_refuted",
    "Scsi2Nvme.C53_data_partial"
   ],
   "note": "The full statement is false of the code (refuted in Lean with a concrete run). MAINTENANCE IN falls through to REPORT LUNS; acceptance and commands exactly in C53_maintenance_in_partial, the answer in C53_data_partial. [C53_maintenance_in_partial] What happens instead: MAINTENANCE IN is treated as REPORT LUNS: accepted exactly if the command block is complete, byte 2 is 0, 1 or 2 and the page is granted; one Identify (active namespace list) is handed out. [C53_refuted] C53 does not hold: the conforming command hands out an Identify command. [C53_data_partial] C53, Complete: \"not supported\" is answered (byte 1, bits 0-2: 001b), if the buffer has room for the 4 bytes. Missing: see C53_maintenance_in_partial."
  },
  {
   "property": "C54",
   "status": "proved",
   "theorems": [
    "Scsi2Nvme.C54_test_unit_ready_begin",
    "Scsi2Nvme.C54_test_unit_ready"
   ],
   "note": "[C54_test_unit_ready_begin] C54, Begin: TEST UNIT READY is accepted, whatever the rest of the command block is; no NVMe command, no page, no data. [C54_test_unit_ready] C54, Complete: GOOD status, no memory is changed."
  },
  {
   "property": "C55",
   "status": "proved",
   "theorems": [
    "Scsi2Nvme.C55_unknown_begin",
    "Scsi2Nvme.C55_unknown",
    "Scsi2Nvme.C55_supported"
   ],
   "note": "[C55_unknown_begin] C55, Begin: a command with an operation code that is not supported is not accepted, yields no NVMe command, requests no page and announces no data. [C55_unknown] C55, Complete: it is answered with CHECK CONDITION, ILLEGAL REQUEST. [C55_supported] C55, the converse: each of the supported operation codes has a command block that is accepted."
  },
  {
   "property": "C56",
   "status": "proved",
   "theorems": [
    "Scsi2Nvme.C56_alloc_len",
    "Scsi2Nvme.C56_frame"
   ],
   "note": "[C56_alloc_len] C56. The engine never reports more data than the data buffer holds. [C56_frame] C56. Of the memory of its caller, the engine itself changes at most the bytes of the data buffer it reports (none if the command does not transfer data in) and the sense buffer: any other byte which was accessible before and which the device leaves alone is unchanged."
  },
  {
   "property": "C57",
   "status": "proved",
   "theorems": [
    "Scsi2Nvme.C57_flow",
    "Scsi2Nvme.C57_task_aborted"
   ],
   "note": "[C57_flow] C57. Every call of the engine is: Begin with API success; then, if the announced length fits, the dialog with the device over the translated commands and Complete with one completion per command and API success; and the status returned is that of Complete. Otherwise the device is not involved, and TASK ABORTED is returned. [C57_task_aborted] C57. TASK ABORTED (40h) is returned only if the announced length does not fit in the data buffer, or if the device answered one of the commands with a status for which the table gives TASK ABORTED."
  },
  {
   "property": "C58",
   "status": "partial",
   "theorems": [
    "Scsi2Nvme.C58_freed_partial",
    "Scsi2Nvme.C58_leak",
    "Scsi2Nvme.C58_refuted"
   ],
   "note": "The full statement is false of the code (refuted in Lean with a concrete run). The early return of the engine (announced length larger than the data buffer) loses the pages; C58_leak proves it does so always. [C58_freed_partial] C58 (partial). The engine hands back every page, if the announced length fits in the data buffer. Missing: longer ones, see C58_leak. [C58_leak] C58, what happens otherwise: the pages recorded for the commands of an accepted command whose allocation length is larger than the data buffer stay allocated, and nothing can hand them back any more. [C58_refuted] C58 does not hold: an INQUIRY with allocation length 96 and a data buffer of 36 bytes loses two pages."
  },
  {
   "property": "C59",
   "status": "proved",
   "theorems": [
    "Scsi2Nvme.C59_block_store",
    "Scsi2Nvme.C59_read_last_write"
   ],
   "note": "[C59_block_store] C59. The engine with an ideal device of 4096-byte blocks, driven by any history of READ and WRITE commands over any LUNs, is an array of disks: every command is answered, and as the user of such an array expects. LUN l is namespace l + 1. [C59_read_last_write] C59, the last write is read: let a history contain a correct WRITE of some blocks of a LUN, then commands not writing any of them, and then a correct READ of the same blocks. Both are answered with GOOD, and the data buffer of the READ holds what the data buffer of the WRITE held."
  },
  {
   "property": "C60",
   "status": "proved",
   "theorems": [
    "Scsi2Nvme.C60_htonll",
    "Scsi2Nvme.C60_htols",
    "Scsi2Nvme.C60_htoll",
    "Scsi2Nvme.C60_htolll",
    "Scsi2Nvme.C60_involutions"
   ],
   "note": "[C60_htonll] C60. On machines of either byte order, the object holding the result of htonll consists of the bytes of the value, most significant first. [C60_htols] htols: least significant first. [C60_htoll] htoll [C60_htolll] htolll [C60_involutions] All of them are their own inverses, which is why the names ntohll, ltohs, ltohl and ltohll are aliases."
  },
  {
   "property": "C61",
   "status": "proved",
   "theorems": [
    "Scsi2Nvme.C61_subspan",
    "Scsi2Nvme.C61_read_value",
    "Scsi2Nvme.C61_write_value"
   ],
   "note": "[C61_subspan] C61. The bytes of a subspan are bytes of the span it was taken from, beginning at the given position; its length is what is left, or the given length if this is smaller (0 if nothing is left). [C61_read_value] C61. ReadValue on a span with contents bs succeeds exactly if the span is not shorter than the type, and then returns the value of the leading bytes; it changes nothing. [C61_write_value] C61. WriteValue of n bytes of a value into an accessible span succeeds exactly if neither the span nor the value is shorter. If so, the n leading bytes of the span become those of the value, and nothing else changes; otherwise nothing changes."
  },
  {
   "property": "C62",
   "status": "proved",
   "theorems": [
    "Scsi2Nvme.C62_refuses",
    "Scsi2Nvme.C62_requests",
    "Scsi2Nvme.C62_no_callback"
   ],
   "note": "[C62_refuses] C62. SetPages fails without calling the allocator and without changing the record if it would overwrite the address of pages of a kind it is asked for. [C62_requests] C62. Otherwise it requests both kinds of pages, first data and then metadata, records the addresses and the counts, and succeeds exactly if no request for at least one page was answered with 0. [C62_no_callback] C62. Without a callback every request counts as answered with 0."
  },
  {
   "property": "C63",
   "status": "proved",
   "theorems": [
    "Scsi2Nvme.C63_fields_GenericQueueEntryCpl",
    "Scsi2Nvme.C63_fields_GenericQueueEntryCmd",
    "Scsi2Nvme.C63_fields_GetFeaturesCmd",
    "Scsi2Nvme.C63_fields_DatasetManagementCmd",
    "Scsi2Nvme.C63_fields_DatasetManagmentRange",
    "Scsi2Nvme.C63_fields_ReadCapacity10Command",
    "Scsi2Nvme.C63_fields_InquiryCommand",
    "Scsi2Nvme.C63_fields_Read6Command",
    "Scsi2Nvme.C63_fields_Read10Command",
    "Scsi2Nvme.C63_fields_Read12Command",
    "Scsi2Nvme.C63_fields_Read16Command",
    "Scsi2Nvme.C63_fields_Write6Command",
    "Scsi2Nvme.C63_fields_Write10Command",
    "Scsi2Nvme.C63_fields_Write12Command",
    "Scsi2Nvme.C63_fields_Write16Command",
    "Scsi2Nvme.C63_fields_Verify10Command",
    "Scsi2Nvme.C63_fields_ModeSense6Command",
    "Scsi2Nvme.C63_fields_ModeSense10Command",
    "Scsi2Nvme.C63_fields_ReportLunsCommand",
    "Scsi2Nvme.C63_fields_ReportOpCodesCommand",
    "Scsi2Nvme.C63_fields_UnmapCommand",
    "Scsi2Nvme.C63_fields_RequestSenseCommand",
    "Scsi2Nvme.C63_fields_ReadCapacity10Data",
    "Scsi2Nvme.C63_fields_InquiryData",
    "Scsi2Nvme.C63_fields_ReportLunsParamData",
    "Scsi2Nvme.C63_fields_OneCommandParamData",
    "Scsi2Nvme.C63_fields_UnmapParamList",
    "Scsi2Nvme.C63_fields_UnmapBlockDescriptor",
    "Scsi2Nvme.C63_fields_CachingModePage",
    "Scsi2Nvme.C63_fields_ControlModePage",
    "Scsi2Nvme.C63_fields_PowerConditionModePage",
    "Scsi2Nvme.C63_fields_ModeParameter6Header",
    "Scsi2Nvme.C63_fields_ModeParameter10Header",
    "Scsi2Nvme.C63_fields_ShortLbaBlockDescriptor",
    "Scsi2Nvme.C63_fields_LongLbaBlockDescriptor",
    "Scsi2Nvme.C63_fields_FixedFormatSenseData",
    "Scsi2Nvme.C63_fields_DescriptorFormatSenseData",
    "Scsi2Nvme.C63_fields_SupportedVitalProductData",
    "Scsi2Nvme.C63_fields_UnitSerialNumber",
    "Scsi2Nvme.C63_fields_IdentificationDescriptor",
    "Scsi2Nvme.C63_fields_DeviceIdentificationVpd",
    "Scsi2Nvme.C63_fields_ExtendedInquiryDataVpd",
    "Scsi2Nvme.C63_fields_BlockDeviceCharacteristicsVpd",
    "Scsi2Nvme.C63_fields_LogicalBlockProvisioningVpd",
    "Scsi2Nvme.C63_fields_BlockLimitsVpd",
    "Scsi2Nvme.C63_completion_status",
    "Scsi2Nvme.C63_fields_IdentifyControllerData",
    "Scsi2Nvme.C63_fields_IdentifyNamespace",
    "Scsi2Nvme.C63_fields_lbads",
    "Scsi2Nvme.C63_GenericQueueEntryCpl",
    "Scsi2Nvme.C63_GenericQueueEntryCmd",
    "Scsi2Nvme.C63_GetFeaturesCmd",
    "Scsi2Nvme.C63_DatasetManagementCmd",
    "Scsi2Nvme.C63_DatasetManagmentRange",
    "Scsi2Nvme.C63_ReadCapacity10Command",
    "Scsi2Nvme.C63_InquiryCommand",
    "Scsi2Nvme.C63_Read6Command",
    "Scsi2Nvme.C63_Read10Command",
    "Scsi2Nvme.C63_Read12Command",
    "Scsi2Nvme.C63_Read16Command",
    "Scsi2Nvme.C63_Write6Command",
    "Scsi2Nvme.C63_Write10Command",
    "Scsi2Nvme.C63_Write12Command",
    "Scsi2Nvme.C63_Write16Command",
    "Scsi2Nvme.C63_Verify10Command",
    "Scsi2Nvme.C63_ModeSense6Command",
    "Scsi2Nvme.C63_ModeSense10Command",
    "Scsi2Nvme.C63_ReportLunsCommand",
    "Scsi2Nvme.C63_ReportOpCodesCommand",
    "Scsi2Nvme.C63_UnmapCommand",
    "Scsi2Nvme.C63_RequestSenseCommand",
    "Scsi2Nvme.C63_ReadCapacity10Data",
    "Scsi2Nvme.C63_InquiryData",
    "Scsi2Nvme.C63_ReportLunsParamData",
    "Scsi2Nvme.C63_OneCommandParamData",
    "Scsi2Nvme.C63_UnmapParamList",
    "Scsi2Nvme.C63_UnmapBlockDescriptor",
    "Scsi2Nvme.C63_CachingModePage",
    "Scsi2Nvme.C63_ControlModePage",
    "Scsi2Nvme.C63_PowerConditionModePage",
    "Scsi2Nvme.C63_ModeParameter6Header",
    "Scsi2Nvme.C63_ModeParameter10Header",
    "Scsi2Nvme.C63_ShortLbaBlockDescriptor",
    "Scsi2Nvme.C63_LongLbaBlockDescriptor",
    "Scsi2Nvme.C63_FixedFormatSenseData",
    "Scsi2Nvme.C63_DescriptorFormatSenseData",
    "Scsi2Nvme.C63_SupportedVitalProductData",
    "Scsi2Nvme.C63_UnitSerialNumber",
    "Scsi2Nvme.C63_IdentificationDescriptor",
    "Scsi2Nvme.C63_DeviceIdentificationVpd",
    "Scsi2Nvme.C63_ExtendedInquiryDataVpd",
    "Scsi2Nvme.C63_BlockDeviceCharacteristicsVpd",
    "Scsi2Nvme.C63_LogicalBlockProvisioningVpd",
    "Scsi2Nvme.C63_BlockLimitsVpd",
    "Scsi2Nvme.C63_identify_sizes"
   ],
   "note": "[C63_fields_GenericQueueEntryCpl] C63. third_party/spdk/nvme.h:218 [C63_fields_GenericQueueEntryCmd] C63. third_party/spdk/nvme.h:314 [C63_fields_GetFeaturesCmd] C63. third_party/spdk/nvme.h:343 [C63_fields_DatasetManagementCmd] C63. third_party/spdk/nvme.h:375 [C63_fields_DatasetManagmentRange] C63. third_party/spdk/nvme.h:410 [C63_fields_ReadCapacity10Command] C63. lib/scsi.h:444 [C63_fields_InquiryCommand] C63. lib/scsi.h:464 [C63_fields_Read6Command] C63. lib/scsi.h:628 [C63_fields_Read10Command] C63. lib/scsi.h:639 [C63_fields_Read12Command] C63. lib/scsi.h:655 [C63_fields_Read16Command] C63. lib/scsi.h:672 [C63_fields_Write6Command] C63. lib/scsi.h:690 [C63_fields_Write10Command] C63. lib/scsi.h:701 [C63_fields_Write12Command] C63. lib/scsi.h:717 [C63_fields_Write16Command] C63. lib/scsi.h:734 [C63_fields_Verify10Command] C63. lib/scsi.h:752 [C63_fields_ModeSense6Command] C63. lib/scsi.h:833 [C63_fields_ModeSense10Command] C63. lib/scsi.h:847 [C63_fields_ReportLunsCommand] C63. lib/scsi.h:871 [C63_fields_ReportOpCodesCommand] C63. lib/scsi.h:900 [C63_fields_UnmapCommand] C63. lib/scsi.h:1028 [C63_fields_RequestSenseCommand] C63. lib/scsi.h:1198 [C63_fields_ReadCapacity10Data] C63. lib/scsi.h:455 [C63_fields_InquiryData] C63. lib/scsi.h:513 [C63_fields_ReportLunsParamData] C63. lib/scsi.h:884 [C63_fields_OneCommandParamData] C63. lib/scsi.h:960 [C63_fields_UnmapParamList] C63. lib/scsi.h:1042 [C63_fields_UnmapBlockDescriptor] C63. lib/scsi.h:1051 [C63_fields_CachingModePage] C63. lib/scsi.h:1060 [C63_fields_ControlModePage] C63. lib/scsi.h:1094 [C63_fields_PowerConditionModePage] C63. lib/scsi.h:1128 [C63_fields_ModeParameter6Header] C63. lib/scsi.h:1156 [C63_fields_ModeParameter10Header] C63. lib/scsi.h:1169 [C63_fields_ShortLbaBlockDescriptor] C63. lib/scsi.h:1182 [C63_fields_LongLbaBlockDescriptor] C63. lib/scsi.h:1189 [C63_fields_FixedFormatSenseData] C63. lib/scsi.h:1209 [C63_fields_DescriptorFormatSenseData] C63. lib/scsi.h:1232 [C63_fields_SupportedVitalProductData] C63. lib/scsi.h:1246 [C63_fields_UnitSerialNumber] C63. lib/scsi.h:1258 [C63_fields_IdentificationDescriptor] C63. lib/scsi.h:1270 [C63_fields_DeviceIdentificationVpd] C63. lib/scsi.h:1284 [C63_fields_ExtendedInquiryDataVpd] C63. lib/scsi.h:1294 [C63_fields_BlockDeviceCharacteristicsVpd] C63. lib/scsi.h:1341 [C63_fields_LogicalBlockProvisioningVpd] C63. lib/scsi.h:1363 [C63_fields_BlockLimitsVpd] C63. lib/scsi.h:1384 [C63_completion_status] C63. The status of a completion is made of bits 1-8 (status code) and 9-11 (status code type) of the 16-bit word in its last two bytes, and dword 0 of its first four bytes. [C63_fields_IdentifyControllerData] C63. third_party/spdk/nvme.h:475-697, by the byte numbers in Figure 247 of the NVMe Base Specification 1.4 (times 8, plus the bit). [C63_fields_IdentifyNamespace] C63. third_party/spdk/nvme.h:701-821, by the byte numbers in Figure 245 of the NVMe Base Specification 1.4 (times 8, plus the bit). [C63_fields_lbads] C63. The data size of LBA format i (LBADS): bits 16-23 of the dword at byte 128 + 4 i. third_party/spdk/nvme.h:811-816 [C63_GenericQueueEntryCpl] C63. third_party/spdk/nvme.h:230 [C63_GenericQueueEntryCmd] C63. third_party/spdk/nvme.h:339 [C63_GetFeaturesCmd] C63. third_party/spdk/nvme.h:371 [C63_DatasetManagementCmd] C63. third_party/spdk/nvme.h:406 [C63_DatasetManagmentRange] C63. third_party/spdk/nvme.h:415 [C63_ReadCapacity10Command] C63. lib/scsi.h:451 [C63_InquiryCommand] C63. lib/scsi.h:472 [C63_Read6Command] C63. lib/scsi.h:635 [C63_Read10Command] C63. lib/scsi.h:651 [C63_Read12Command] C63. lib/scsi.h:668 [C63_Read16Command] C63. lib/scsi.h:686 [C63_Write6Command] C63. lib/scsi.h:697 [C63_Write10Command] C63. lib/scsi.h:713 [C63_Write12Command] C63. lib/scsi.h:730 [C63_Write16Command] C63. lib/scsi.h:748 [C63_Verify10Command] C63. lib/scsi.h:765 [C63_ModeSense6Command] C63. lib/scsi.h:843 [C63_ModeSense10Command] C63. lib/scsi.h:859 [C63_ReportLunsCommand] C63. lib/scsi.h:879 [C63_ReportOpCodesCommand] C63. lib/scsi.h:911 [C63_UnmapCommand] C63. lib/scsi.h:1037 [C63_RequestSenseCommand] C63. lib/scsi.h:1205 [C63_ReadCapacity10Data] C63. lib/scsi.h:459 [C63_InquiryData] C63. lib/scsi.h:558 [C63_ReportLunsParamData] C63. lib/scsi.h:888 [C63_OneCommandParamData] C63. lib/scsi.h:967 [C63_UnmapParamList] C63. lib/scsi.h:1047 [C63_UnmapBlockDescriptor] C63. lib/scsi.h:1056 [C63_CachingModePage] C63. lib/scsi.h:1090 [C63_ControlModePage] C63. lib/scsi.h:1124 [C63_PowerConditionModePage] C63. lib/scsi.h:1152 [C63_ModeParameter6Header] C63. lib/scsi.h:1165 [C63_ModeParameter10Header] C63. lib/scsi.h:1180 [C63_ShortLbaBlockDescriptor] C63. lib/scsi.h:1187 [C63_LongLbaBlockDescriptor] C63. lib/scsi.h:1194 [C63_FixedFormatSenseData] C63. lib/scsi.h:1228 [C63_DescriptorFormatSenseData] C63. lib/scsi.h:1242 [C63_SupportedVitalProductData] C63. lib/scsi.h:1254 [C63_UnitSerialNumber] C63. lib/scsi.h:1266 [C63_IdentificationDescriptor] C63. lib/scsi.h:1280 [C63_DeviceIdentificationVpd] C63. lib/scsi.h:1290 [C63_ExtendedInquiryDataVpd] C63. lib/scsi.h:1337 [C63_BlockDeviceCharacteristicsVpd] C63. lib/scsi.h:1358 [C63_LogicalBlockProvisioningVpd] C63. lib/scsi.h:1380 [C63_BlockLimitsVpd] C63. lib/scsi.h:1409 [C63_identify_sizes] The identify structures, which are read in place, have 4096 bytes: third_party/spdk/nvme.h:697, 821."
  },
  {
   "property": "C64",
   "status": "partial",
   "theorems": [
    "Scsi2Nvme.C64_alloc_len_partial",
    "Scsi2Nvme.C64_refuted"
   ],
   "note": "The full statement is false of the code (refuted in Lean with a concrete run). Excepted are UNMAP and MODE SENSE(10); their exact announced lengths are in C78. [C64_alloc_len_partial] C64, proved for every accepted command other than UNMAP and MODE SENSE(10). [C64_refuted] C64 does not hold: MODE SENSE(10), translated as REPORT LUNS, announces what REPORT LUNS would."
  },
  {
   "property": "C65",
   "status": "partial",
   "theorems": [
    "Scsi2Nvme.C65_modifies_partial",
    "Scsi2Nvme.C65_refuted"
   ],
   "note": "The full statement is false of the code (refuted in Lean with a concrete run). Excepted is UNMAP with reserved bits set, which can replay an earlier WRITE; exact: C69. [C65_modifies_partial] C65, proved for every command other than UNMAP: an NVMe command that modifies data is handed out only for a WRITE. [C65_refuted] C65 does not hold: after a WRITE, a malformed UNMAP hands out that NVMe Write again."
  },
  {
   "property": "C66",
   "status": "partial",
   "theorems": [
    "Scsi2Nvme.C66_characteristics_partial",
    "Scsi2Nvme.C66_refuted"
   ],
   "note": "The full statement is false of the code (refuted in Lean with a concrete run). C66_characteristics_partial gives the exact bytes written for every buffer. [C66_characteristics_partial] C66, what is written instead, whatever the device reports. Missing: page code, length and rotation rate are wrong (83h, 3C00h and 0100h). [C66_refuted] C66 does not hold."
  },
  {
   "property": "C67",
   "status": "proved",
   "theorems": [
    "Scsi2Nvme.C67_submissions"
   ],
   "note": "[C67_submissions] C67. If the engine does not refuse the command for its allocation length, the device gets exactly the commands GetNvmeWrappers() returns after Begin, once each and in order: each to the queue its is_admin flag names, as the 64 bytes of the command, with the address in bytes 24-31 of the command as the buffer, and with the length given in the wrapper; and the result reflects all of their completions."
  },
  {
   "property": "C68",
   "status": "proved",
   "theorems": [
    "Scsi2Nvme.C68_io_complete"
   ],
   "note": "[C68_io_complete] C68. Completing a successful READ, WRITE, SYNCHRONIZE CACHE (35h) or VERIFY (2Fh) returns GOOD, changes no memory and makes no allocator call (the whole world, including the trace of allocator calls, is as before)."
  },
  {
   "property": "C69",
   "status": "proved",
   "theorems": [
    "Scsi2Nvme.C69_unmap_begin"
   ],
   "note": "[C69_unmap_begin] C69. What Begin does with UNMAP, exactly, for a readable parameter list and a well-behaved allocator. * If the parameter list is translatable and the page for it was granted at a: the command is accepted exactly if (reserved) bits of the command block make a good MODE SENSE(6) with DBD set; it then hands out the Dataset Management command for the requested ranges (flagged for the admin queue, with a buffer length of one page), which are stored at a, followed by Get Features if the caching page is \"asked for\". * Otherwise: the command is accepted exactly if the bits make a good MODE SENSE(6) and, for DBD clear, a page was granted; it then hands out whatever the first command slot of the object still held from before (so possibly a Write), then what MODE SENSE(6) hands out."
  },
  {
   "property": "C70",
   "status": "proved",
   "theorems": [
    "Scsi2Nvme.C70_submission",
    "Scsi2Nvme.C70_requests"
   ],
   "note": "[C70_submission] C70. One submission: the hardware executes the command exactly if the driver can reach it, and then once, with the request obtained before and given back after; otherwise memory and (zero) completion stay as they are. [C70_requests] C70. Over a call of the engine, every request obtained from the block layer is given back, once, after the command was executed; and the hardware executes no other commands than the ones GetNvmeWrappers() returns, each at most once, in their order."
  },
  {
   "property": "C71",
   "status": "partial",
   "theorems": [
    "Scsi2Nvme.C71_executed_partial",
    "Scsi2Nvme.C71_silent",
    "Scsi2Nvme.C71_refuted"
   ],
   "note": "The full statement is false of the code (refuted in Lean with a concrete run). The engine ignores the return code of the driver; C71_silent proves what happens then. [C71_executed_partial] C71 (partial). It holds if the block layer always finds its queues, gives requests and maps buffers. Missing: a block layer in which something fails, see C71_silent. [C71_silent] C71, what happens otherwise: a READ or WRITE the translator accepts, with a data buffer of sufficient size and a block layer that cannot get its commands to the hardware, is answered with GOOD all the same; no command is executed, memory and trace of the allocator are unchanged. A WRITE is lost, a READ returns what was in the buffer before. [C71_refuted] C71 does not hold: a WRITE of two blocks with a block layer that has no free request is answered with GOOD."
  },
  {
   "property": "C72",
   "status": "proved",
   "theorems": [
    "Scsi2Nvme.C72_util"
   ],
   "note": "[C72_util] C72. The allocation functions of util.c, on top of a kernel that does what it should, are a well-behaved allocator as assumed by the other properties, and answer a request for zero pages with 0."
  },
  {
   "property": "C73",
   "status": "proved",
   "theorems": [
    "Scsi2Nvme.C73_transfer",
    "Scsi2Nvme.C73_engine"
   ],
   "note": "[C73_transfer] C73. The module transfers data into the scatter-gather list only for data-in commands, and then exactly a prefix of at most the (16-bit) buffer length; what follows the prefix is unchanged and the length of the list stays the same; the residual count is the part of the buffer length that was not transferred. [C73_engine] C73. What the engine gets and what happens with its answer. If the module gets its buffer, it calls the engine once, with the command block, LUN and sense buffer of the command, and the buffer, which holds zeros or (for a command that is not data-in) the data to be sent; the result is the status the engine returns; and for a data-in command exactly the bytes which the engine says it has put into the buffer are transferred. If there is no memory for the buffer, the device is not involved."
  },
  {
   "property": "C74",
   "status": "proved",
   "theorems": [
    "Scsi2Nvme.C74_no_stale",
    "Scsi2Nvme.C74_frame"
   ],
   "note": "[C74_no_stale] C74. If a command is not answered with result 0 and the device does not write into the buffer of the module, the transferred bytes are zeros: no stale kernel memory gets to the initiator. [C74_frame] C74. The buffer of the module is handed back, and of what was accessible before the call the module changes at most the sense buffer."
  },
  {
   "property": "C75",
   "status": "partial",
   "theorems": [
    "Scsi2Nvme.C75_block_store_partial",
    "Scsi2Nvme.C75_long_read",
    "Scsi2Nvme.C75_refuted"
   ],
   "note": "The full statement is false of the code (refuted in Lean with a concrete run). bufflen is truncated to 16 bits: C75_long_read proves all affected READs fail. [C75_block_store_partial] C75 (partial). The module on top of an ideal device, driven by any history of READ and WRITE commands over any LUNs with scatter-gather lists of less than 65536 bytes, is an array of disks. Missing: longer lists, see C75_refuted. [C75_long_read] C75 (exact). A READ asking for more bytes than the remainder of the length of the scatter-gather list modulo 65536 is never answered with result 0, whatever the device holds: so is every READ of 64 KiB and more whose list is as long as the data asked for. [C75_refuted] C75 is false as stated: READs of 64 KiB fail although the device has the data (the length of the list is truncated to 16 bits, and the engine sees a data buffer of 0 bytes)."
  },
  {
   "property": "C76",
   "status": "proved",
   "theorems": [
    "Scsi2Nvme.C76_vpd_exact"
   ],
   "note": "[C76_vpd_exact] C76. The vital product data returned, exactly, for every page code and every buffer length: the page actualVpd if the buffer can hold it; if not, the four bytes of the head alone for the pages 00h and 80h (if they fit), and nothing otherwise; nothing for any other page code. The command is answered with GOOD in any case."
  },
  {
   "property": "C77",
   "status": "proved",
   "theorems": [
    "Scsi2Nvme.C77_leak_exact"
   ],
   "note": "[C77_leak_exact] C77. Page 80h depends on the contents of the stack exactly if one of the numbers it is made of has less than 15 hexadecimal digits: otherwise any two executions return the same bytes, and in this case there are two executions with the same device, LUN and buffer length which return different bytes, so that the initiator learns stack contents."
  },
  {
   "property": "C78",
   "status": "proved",
   "theorems": [
    "Scsi2Nvme.C78_begin"
   ],
   "note": "[C78_begin] C78. Begin is exactly the function plan, for every command block: which pages are asked for, whether the command is accepted, which NVMe commands are handed out (all 64 bytes, the queue and the buffer length of each), and the announced allocation length."
  },
  {
   "property": "C79",
   "status": "proved",
   "theorems": [
    "Scsi2Nvme.C79_complete",
    "Scsi2Nvme.C79_run"
   ],
   "note": "[C79_complete] C79. Every call of Complete ends exactly as the function outcome says: an API failure if the number of completions is not the number of commands handed out; CHECK CONDITION with INVALID FIELD IN CDB if Begin rejected the command; the status and sense data of the first completion that is not successful; and otherwise GOOD with exactly the data reply. Nothing but the sense buffer or the data-in buffer is changed (apart from pages handed back). p0, p1 are the pages the device filled, if the command is one whose answer is made of them; the data-in buffer exists when Begin is called. [C79_run] C79, from the command block to the answer: together with C78, the whole answer is a function of the command block, the buffers, the LUN, the allocator's answers, what the command slots held before, the completions and what the device put into the pages."
  },
  {
   "property": "C80",
   "status": "proved",
   "theorems": [
    "Scsi2Nvme.C80_engine"
   ],
   "note": "[C80_engine] C80. A whole call of the engine, as a function of the command block, the LUN, the data buffer, the allocator's answers (evs are the allocator calls Begin makes, m1 is the memory it leaves), the contents of the uninitialised command slots and what the device does: the device is given exactly the commands of plan, once each and in order; what is returned, and what is in the data buffer or the sense buffer, is outcome of its completions and of the pages it filled. If the announced length does not fit in the data buffer, the device is not involved and TASK ABORTED is returned. For every device that, executing the commands, takes no memory away and leaves the command block alone."
  },
  {
   "property": "C81",
   "status": "partial",
   "theorems": [
    "Scsi2Nvme.C81_exact_partial",
    "Scsi2Nvme.C81_returns",
    "Scsi2Nvme.C81_refuted"
   ],
   "note": "The full statement is false of the code (refuted in Lean with a concrete run). C81_exact_partial is an if-and-only-if. [C81_exact_partial] C81, exactly what holds: a call of the engine has undefined behaviour if and only if the announced length fits in the data buffer, the command is accepted, the device executes all NVMe commands successfully, and the command is one of the MODE SENSE commands of traps. [C81_returns] C81. For every command but MODE SENSE a call of the engine returns. [C81_refuted] MODE SENSE(6) for the control page without block descriptors has undefined behaviour."
  },
  {
   "property": "C82",
   "status": "proved",
   "theorems": [
    "Scsi2Nvme.C82_information"
   ],
   "note": "[C82_information] C82. Information commands through the engine: over a controller which executes Identify and Get Features, and if the allocator refuses no page during the call, every INQUIRY, READ CAPACITY(10), REPORT LUNS and MODE SENSE(6) which query covers and whose allocation length fits in the data buffer is answered with GOOD; the state of the device is unchanged; and of the memory of the caller exactly the bytes of reply are changed, made of the controller's data for the LUN's namespace. (stack is the uninitialised stack memory which reaches the answer of VPD page 80h.)"
  },
  {
   "property": "C83",
   "status": "proved",
   "theorems": [
    "Scsi2Nvme.C83_untouched",
    "Scsi2Nvme.C83_history",
    "Scsi2Nvme.C83_read_last_write",
    "Scsi2Nvme.C83_served"
   ],
   "note": "[C83_untouched] C83 (one command). A command other than READ and WRITE leaves the disks alone, whatever it is, unless it is an UNMAP with a nonzero reserved byte 2. [C83_history] C83. The engine with a device that stores data, driven by any history of commands whatsoever: READ and WRITE behave as those of an array of disks (LUN l is namespace l + 1), and no other command changes the disks. [C83_read_last_write] C83, the last write is read: in any history that contains a correct WRITE of some blocks of a LUN, then any commands at all except WRITEs of these blocks, then a correct READ of the blocks, both are answered with GOOD, and the READ returns what the WRITE wrote. [C83_served] C83, total: with a controller that also executes Identify and Get Features, and a well-behaved allocator, every history of steady commands (all but some MODE SENSE commands, see C81) is served to the end, and as C83_history says."
  },
  {
   "property": "C84",
   "status": "proved",
   "theorems": [
    "Scsi2Nvme.C84_protocol",
    "Scsi2Nvme.C84_pages"
   ],
   "note": "[C84_protocol] C84. Whatever calls are made on other objects in between, and whatever callbacks are registered, each object follows the protocol by itself. [C84_pages] C84. With deallocation callbacks registered, and allocators answering 0 to empty requests: in every interleaving of calls on the objects is, only page ranges that are outstanding are handed back; once every object is idle again exactly the ranges outstanding at the start are outstanding."
  },
  {
   "property": "C85",
   "status": "partial",
   "theorems": [
    "Scsi2Nvme.C85_left_behind_partial",
    "Scsi2Nvme.C85_while_loaded",
    "Scsi2Nvme.C85_refuted"
   ],
   "note": "The full statement is false of the code (refuted in Lean with a concrete run). C85_left_behind_partial gives exactly what remains after every history: the block device handle of each life in which it could be opened, and the device reference of each life whose device_register failed. [C85_left_behind_partial] C85 (partial). In every history of the module nothing is released that is not held, and what remains at the end is exactly what each life leaves behind: the handle of the block device, if it could be opened, and the reference to the device, if its registration failed; everything else has been released. Missing: that nothing remains, which is false. [C85_while_loaded] C85. While the module is loaded it holds the root device, the bus, the driver, the device (with the reference to it), the block device if it could be opened, and one host exactly if the device is bound \u2013 after every sequence of unbinding and binding. [C85_refuted] C85 is false. The handle of the block device is never given back."
  },
  {
   "property": "C86",
   "status": "partial",
   "theorems": [
    "Scsi2Nvme.C86_load_exact_partial",
    "Scsi2Nvme.C86_refuted"
   ],
   "note": "The full statement is false of the code (refuted in Lean with a concrete run). The result of nvme_driver_init is ignored. C86_load_exact_partial says exactly when loading succeeds and when the namespace is available. [C86_load_exact_partial] C86 (partial). Loading succeeds exactly if the root device, the bus, the driver and the device could be registered (otherwise -EINVAL is returned), and then the namespace is available exactly if the block device could be opened and has a disk and a namespace; so this is true only if nvme_driver_init succeeded, whose result is not looked at. [C86_refuted] C86 is false. Without a block device the module loads all the same."
  },
  {
   "property": "C87",
   "status": "partial",
   "theorems": [
    "Scsi2Nvme.C87_bind_exact_partial",
    "Scsi2Nvme.C87_host_once",
    "Scsi2Nvme.C87_refuted"
   ],
   "note": "The full statement is false of the code (refuted in Lean with a concrete run). The counter of registered hosts is never decreased; C87_bind_exact_partial is an exact equation, C87_host_once covers all histories. [C87_bind_exact_partial] C87 (partial). Exactly: a device is bound by an attempt if and only if it already is, or no host was ever registered since the module was loaded and the kernel grants one. Missing: binding again after it was released, which never works. [C87_host_once] C87. At most one host is registered in one life of the module, whatever is done with the device: after the first successful binding, the device is bound at most until it is released for the first time. [C87_refuted] C87 is false."
  },
  {
   "property": "C88",
   "status": "partial",
   "theorems": [
    "Scsi2Nvme.C88_exact_partial",
    "Scsi2Nvme.C88_refuted"
   ],
   "note": "The full statement is false of the code (refuted in Lean with a concrete run). READ uses a fixed 4096-byte block; C88_exact_partial says the two agree exactly for namespaces with 4096-byte blocks. [C88_exact_partial] C88 (partial). READ CAPACITY(10) returns the block length of the namespace, and every accepted READ announces (and its NVMe command has a buffer of) 4096 bytes a block: the two agree exactly on namespaces with blocks of 4096 bytes. Missing: all others, where they never agree. [C88_refuted] C88 is false. A namespace with blocks of 512 bytes: READ CAPACITY tells 512, READ transfers 4096 a block."
  },
  {
   "property": "C89",
   "status": "partial",
   "theorems": [
    "Scsi2Nvme.C89_exact_partial",
    "Scsi2Nvme.C89_refuted"
   ],
   "note": "The full statement is false of the code (refuted in Lean with a concrete run). PRP entry 2 is never set; C89_exact_partial says the transfer is completely described exactly if it is one block into a page-aligned buffer. [C89_exact_partial] C89 (partial). Exactly: every command handed out for READ or WRITE has the address of the data buffer as PRP1 and none as PRP2, so all of the transfer is described if and only if it is one block of 4096 bytes and the buffer is aligned to 4096 bytes. Missing: everything larger, of which the controller is told the first page only. [C89_refuted] C89 is false. The READ(10) of two blocks into an aligned buffer."
  },
  {
   "property": "C90",
   "status": "proved",
   "theorems": [
    "Scsi2Nvme.C90_commands",
    "Scsi2Nvme.C90_answer"
   ],
   "note": "[C90_commands] C90. ModeSense10ToNvme, called with room for two commands and a free allocation record, for every command block: an incomplete one is refused and changes nothing; otherwise the allocation length (bytes 7-8) is returned, one page is asked for exactly if DBD = 0, the command is accepted exactly if the page is supported, not the saved values of the caching page are asked for and the page was granted, and then the commands appended are Identify Namespace (DBD = 0) and Get Features (caching page). [C90_answer] C90. ModeSense10ToScsi for a supported page: it never fails, and exactly the structures of the answer, as many of them as fit, are written at the start of the buffer (DBD = 0: with the Identify data ns at the address in the command given, outside of the buffer)."
  },
  {
   "property": "C91",
   "status": "proved",
   "theorems": [
    "Scsi2Nvme.C91_validate",
    "Scsi2Nvme.C91_answer"
   ],
   "note": "[C91_validate] C91. ValidateReportSupportedOpCodes accepts exactly complete command blocks asking for one command (reporting option 001b) without service action, WRITE SAME(16); it then sets the allocation length to 4, and leaves it otherwise. [C91_answer] C91. WriteReportSupportedOpCodesResult writes the four bytes saying \"not supported\" (SUPPORT = 001b), if the buffer holds them; otherwise nothing."
  },
  {
   "property": "C92",
   "status": "proved",
   "theorems": [
    "Scsi2Nvme.C92_read",
    "Scsi2Nvme.C92_wraps"
   ],
   "note": "[C92_read] C92. The four READ translators, called with blocks of L bytes (at most 65536): accepted exactly if the command block is complete, the protection field translatable, and the number of blocks 1 to 65535 with all of them fitting in the buffer; the command is then the NVMe Read with the fields of the command block, and the lengths announced are L bytes a block. [C92_wraps] C92. With larger blocks the length is computed modulo 2^32: two blocks of 2^31 bytes are read into an empty buffer."
  },
  {
   "property": "C93",
   "status": "proved",
   "theorems": [
    "Scsi2Nvme.C93_history",
    "Scsi2Nvme.C93_read_last_write",
    "Scsi2Nvme.C93_served"
   ],
   "note": "[C93_history] C93. The module with a device that stores data, driven by any history of commands whatsoever: READ and WRITE (with lists of less than 65536 bytes) behave as those of an array of disks, LUN l being namespace l + 1, and no other command changes the disks or the length of a list. [C93_read_last_write] C93, the last write is read: in any history that contains a correct WRITE of some blocks of a LUN, then any commands at all except WRITEs of these blocks, then a correct READ of the blocks, and memory for the buffers of the two, both are answered with result 0, and the READ puts into its list what the list of the WRITE held. [C93_served] C93, total: with a controller that also executes Identify and Get Features, every history of steady commands (all but some MODE SENSE commands, see C81) is handled to the end, and as C93_history says."
  },
  {
   "property": "C94",
   "status": "proved",
   "theorems": [
    "Scsi2Nvme.C94_information"
   ],
   "note": "[C94_information] C94. Information commands through the module: over a controller which executes Identify and Get Features, and with memory for the buffer and the pages, every data-in INQUIRY, READ CAPACITY(10), REPORT LUNS and MODE SENSE(6) which query covers and whose allocation length fits in the (16-bit) buffer length is answered with result 0; the state of the device is unchanged; the scatter-gather list begins with exactly the bytes of reply, filled up with zeros to the allocation length, and is unchanged behind that; and the residual count is what the allocation length leaves of the buffer length. (stack is the uninitialised stack memory which reaches the answer of VPD page 80h.)"
  },
  {
   "property": "C95",
   "status": "proved",
   "theorems": [
    "Scsi2Nvme.C95_stack",
    "Scsi2Nvme.C95_read_last_write",
    "Scsi2Nvme.C95_served",
    "Scsi2Nvme.C95_mapped"
   ],
   "note": "[C95_stack] C95. The whole stack - kernel module, engine, library and driver - over a block layer in which nothing fails and which keeps the data of the disks: for any history of commands whatsoever, READ and WRITE (with lists of less than 65536 bytes) behave as those of an array of disks, no other command changes the disks or the length of a list, and every request obtained from the block layer is given back. [C95_read_last_write] C95, the last write is read, through the whole stack. [C95_served] C95, total: if moreover Identify and Get Features are executed, every history of steady commands (all but some MODE SENSE commands, see C81) is handled to the end. [C95_mapped] C95: a driver which, as that of Linux, transfers the data through the buffer handed over, whatever the data pointers in the command are, is one of the devices C83, C93 and C95 are about."
  },
  {
   "property": "C96",
   "status": "proved",
   "theorems": [
    "Scsi2Nvme.C96_alone",
    "Scsi2Nvme.C96_linearizable",
    "Scsi2Nvme.C96_defined",
    "Scsi2Nvme.C96_wait_free"
   ],
   "note": "[C96_alone] C96 (the steps). A call which makes its steps undisturbed is a call of ScsiToNvme; it returns after at most five steps. [C96_linearizable] C96. Any number of calls for different memory, made concurrently and interleaved in any way: there is an order in which the calls could have been executed one after the other with the same answers and the same effect on the disks. It contains every call that has returned and no call that has not begun. This holds at any moment (y\u2081), and later (y\u2082) the order is the same, with further calls after it: so a call that returned before another began comes before it. [C96_defined] C96 (safety). No interleaving of calls which are steady, whatever the Identify data (all commands but some MODE SENSE commands, see C81), has undefined behaviour. (C98_defined is sharper: it takes the Identify data of the namespace into account.) [C96_wait_free] C96 (progress). A call which was given five turns has returned, whatever the other calls did."
  },
  {
   "property": "C97",
   "status": "proved",
   "theorems": [
    "Scsi2Nvme.C97_durable",
    "Scsi2Nvme.C97_atomic",
    "Scsi2Nvme.C97_untouched",
    "Scsi2Nvme.C97_read_after_write"
   ],
   "note": "[C97_durable] C97 (durability). At any moment, in any interleaving: if a correct WRITE has returned then it returned GOOD, and if no other call writes the blocks then they hold its data. [C97_atomic] C97 (atomicity). At any moment, in any interleaving - in particular if the machine stops there: a correct WRITE whose blocks no other call writes has been carried out entirely or not at all. [C97_untouched] C97 (untouched blocks). At any moment, in any interleaving: blocks no call writes are as before. [C97_read_after_write] C97 (the last write is read). Let a correct WRITE have returned at some moment at which a correct READ of the same blocks had not begun; let no other call write the blocks. When the READ has returned, its data buffer holds what the WRITE wrote, whatever else went on before, between and meanwhile."
  },
  {
   "property": "C98",
   "status": "proved",
   "theorems": [
    "Scsi2Nvme.C98_isolated",
    "Scsi2Nvme.C98_defined"
   ],
   "note": "[C98_isolated] C98. Information commands among any other calls, in any interleaving: over a controller which executes Identify and Get Features, and if the allocator refused no page to any call, every INQUIRY, READ CAPACITY(10), REPORT LUNS and MODE SENSE(6) which query covers and which fits in the data buffer is answered as it would be alone (C82): with GOOD, and its memory is as it was given, except that the data of reply is in the data buffer. [C98_defined] C98 (safety). No interleaving of calls which are steady for the Identify data of their namespaces (all but some MODE SENSE commands, see C81) has undefined behaviour."
  },
  {
   "property": "C99",
   "status": "proved",
   "theorems": [
    "Scsi2Nvme.C99_disks",
    "Scsi2Nvme.C99_memory",
    "Scsi2Nvme.C99_defined",
    "Scsi2Nvme.C99_driver"
   ],
   "note": "[C99_disks] C99. The device may fail in any way, at any time, while any number of calls are under way: at every moment every byte of every disk is the one it held at first, or the one which a complete and correct WRITE among the calls which have begun puts there. [C99_memory] C99. \u2026 memory which was accessible and belongs to no call is not touched; nor is the memory of a call which has not begun. [C99_defined] C99. \u2026 and no interleaving has undefined behaviour (some MODE SENSE commands aside, see C81). [C99_driver] C99. The driver of the kernel is such a device over any block layer, however unreliable, whose hardware is such a device: a submission which fails has no effect."
  },
  {
   "property": "C100",
   "status": "partial",
   "theorems": [
    "Scsi2Nvme.C100_messages_partial",
    "Scsi2Nvme.C100_refuted",
    "Scsi2Nvme.C100_undefined",
    "Scsi2Nvme.C100_silent",
    "Scsi2Nvme.C100_numbers",
    "Scsi2Nvme.C100_names",
    "Scsi2Nvme.C100_accepted_named",
    "Scsi2Nvme.C100_called"
   ],
   "note": "[C100_messages_partial] C100. \u2026 which holds of all calls but two: no message is cut off at 1023 characters, and none contains a %, which printk(msg) would take for a conversion. [C100_refuted] C100 is false: translation.cc:183 passes a size_t (the number of completions) for %u, and report_luns.cc:55 a scoped enumeration. [C100_undefined] C100. Both calls have undefined behaviour, whatever the values of the arguments, if a callback is set. [C100_silent] C100. Without a callback, DebugLog does nothing, and is defined for every format and all arguments. [C100_numbers] C100. The numbers in messages are what they should be: %u and %d give the decimal digits, %#x gives 0x and the hexadecimal digits (or 0). [C100_names] C100. Two operation codes have the same name only if the name is INVALID_OPCODE. [C100_accepted_named] C100. No command is accepted whose operation code is called INVALID_OPCODE in the message about it. [C100_called] C100. Every operation code is called what the standard's list says."
  },
  {
   "property": "C101",
   "status": "proved",
   "theorems": [
    "Scsi2Nvme.C101_alone",
    "Scsi2Nvme.C101_linearizable",
    "Scsi2Nvme.C101_defined",
    "Scsi2Nvme.C101_confined",
    "Scsi2Nvme.C101_wait_free"
   ],
   "note": "[C101_alone] C101 (the steps). A call which makes its steps undisturbed is a call of scsi_queuecommand; it is done after at most seven steps. [C101_linearizable] C101. Any number of commands with different command blocks and sense buffers, handed to the module concurrently, their calls interleaved in any way: there is an order in which the commands could have been executed one after the other with the same outcomes (result, residual count, scatter-gather list) and the same effect on the disks. It contains every command that is done and no command for which the engine has not begun. This holds at any moment (y\u2081), and later (y\u2082) the order is the same, with further commands after it: so a command that was done before another one began comes before it. A command fails for lack of memory only if kzalloc returned NULL when its turn had come. [C101_defined] C101 (safety). No interleaving of commands which are steady, whatever the Identify data (all commands but some MODE SENSE commands, see C81), has undefined behaviour. [C101_confined] C101 (confinement). At any moment, in any interleaving: memory that was accessible at the beginning and is neither a command block nor a sense buffer of the commands is unchanged. [C101_wait_free] C101 (progress). A command which was given seven turns is done, whatever the other calls did."
  },
  {
   "property": "C102",
   "status": "proved",
   "theorems": [
    "Scsi2Nvme.C102_durable",
    "Scsi2Nvme.C102_atomic",
    "Scsi2Nvme.C102_untouched",
    "Scsi2Nvme.C102_read_after_write"
   ],
   "note": "[C102_durable] C102 (durability). At any moment, in any interleaving: if a correct WRITE is done then it was refused memory and answered with 23, or it was answered with result 0, and if no other command writes the blocks then they hold its data. [C102_atomic] C102 (atomicity). At any moment, in any interleaving - in particular if the machine stops there: a correct WRITE whose blocks no other command writes has been carried out entirely or not at all. [C102_untouched] C102 (untouched blocks). At any moment, in any interleaving: blocks no command writes are as before. [C102_read_after_write] C102 (the last write is read). Let a correct WRITE be done at some moment at which the engine has not begun with a correct READ of the same blocks; let no other command write the blocks, and let both get their memory. When the READ is done, the beginning of its scatter-gather list holds what the WRITE wrote, the rest of it is unchanged, and the residual count is right, whatever else went on before, between and meanwhile."
  },
  {
   "property": "C103",
   "status": "proved",
   "theorems": [
    "Scsi2Nvme.C103_isolated",
    "Scsi2Nvme.C103_defined"
   ],
   "note": "[C103_isolated] C103. Information commands among any other commands handed to the kernel module concurrently, in any interleaving: over a controller which executes Identify and Get Features, if there was memory for the data buffer of the command and no page was refused to any call, every INQUIRY, READ CAPACITY(10), REPORT LUNS and MODE SENSE(6) which query covers and which fits in the (16-bit) buffer length has, once it is done, the outcome it has when it is the only command (C94): Replied. [C103_defined] C103 (safety). No interleaving of commands which are steady for the Identify data of their namespaces (all but some MODE SENSE commands, see C81) has undefined behaviour."
  },
  {
   "property": "C104",
   "status": "proved",
   "theorems": [
    "Scsi2Nvme.C104_in_use",
    "Scsi2Nvme.C104_no_leak",
    "Scsi2Nvme.C104_needed"
   ],
   "note": "[C104_in_use] C104. Commands are handed to the kernel module in any interleaving, none of which asks for more data than its buffer holds. At any moment: memory accessible at the beginning is still accessible; if more memory is accessible, some command is being executed. [C104_no_leak] C104 (no leak). \u2026 So once no command is being executed, exactly the memory accessible at the beginning is accessible: data buffers and pages are all given back. [C104_needed] The hypothesis on the allocation length is necessary: an INQUIRY with allocation length 96 and a list of 36 bytes ends with result 40h, and a page of the kernel is never given back."
  },
  {
   "property": "C105",
   "status": "proved",
   "theorems": [
    "Scsi2Nvme.C105_requests",
    "Scsi2Nvme.C105_linearizable",
    "Scsi2Nvme.C105_read_after_write",
    "Scsi2Nvme.C105_atomic",
    "Scsi2Nvme.C105_queries",
    "Scsi2Nvme.C105_no_leak",
    "Scsi2Nvme.C105_defined"
   ],
   "note": "[C105_requests] C105 (requests). Commands handed to the kernel module in any interleaving, over any block layer whatever fails in it: at any moment, every request the driver obtained from the block layer has been given back. [C105_linearizable] C105. The whole stack - kernel module, engine, library and driver - used concurrently, over a block layer in which nothing fails and which keeps the data of the disks: in any interleaving the commands have the outcomes and the effect on the disks which they have when executed one after the other in some order (C101), in which a command that is done comes before one that has not begun. [C105_read_after_write] C105 (the last write is read), through the whole stack: as C102. [C105_atomic] C105 (durability and atomicity), through the whole stack, at any moment, in particular if the machine stops there: the blocks of a correct WRITE which no other command writes hold its data or what they held before - its data, if it is done with result 0. [C105_queries] C105 (information commands), through the whole stack: as C103. [C105_no_leak] C105 (no leak), through the whole stack: as C104. [C105_defined] C105 (safety). No interleaving of steady commands has undefined behaviour, and a command is done after at most seven turns."
  },
  {
   "property": "C106",
   "status": "proved",
   "theorems": [
    "Scsi2Nvme.C106_disks",
    "Scsi2Nvme.C106_memory",
    "Scsi2Nvme.C106_outcome",
    "Scsi2Nvme.C106_no_leak",
    "Scsi2Nvme.C106_defined",
    "Scsi2Nvme.C106_stack"
   ],
   "note": "[C106_disks] C106 (disks). Commands are handed to the kernel module in any interleaving, and the device may fail in any way at any time: at every moment every byte of every disk is the one it held at first, or the one which a complete and correct WRITE, with whose execution the engine has begun, puts there. [C106_memory] C106 (memory). \u2026 memory which was accessible stays accessible; what belongs to no command is not touched, nor is that of a command with which the engine has not begun. [C106_outcome] C106 (answers). \u2026 every command which is done has result GOOD, CHECK CONDITION, TASK ABORTED or 23; the length of its scatter-gather list is unchanged, and the whole list if the direction is not data-in. [C106_no_leak] C106 (no leak). \u2026 and if no command asks for more data than its buffer holds then, once no command is being executed, exactly the memory accessible at the beginning is accessible. [C106_defined] C106 (defined). \u2026 and no interleaving has undefined behaviour (some MODE SENSE commands aside, see C81). [C106_stack] C106 (driver). The same through the driver of the kernel, over any block layer - which may refuse requests, fail to map buffers, and fail in any way when it executes a command."
  },
  {
   "property": "C107",
   "status": "partial",
   "theorems": [
    "Scsi2Nvme.C107_ready",
    "Scsi2Nvme.C107_exact_partial",
    "Scsi2Nvme.C107_rw_partial",
    "Scsi2Nvme.C107_opened_partial",
    "Scsi2Nvme.C107_refuted"
   ],
   "note": "[C107_ready] C107, with a namespace: the engine and the module are the ones of all other theorems. [C107_exact_partial] C107, what happens without a namespace: a command for which Begin hands out an NVMe command, with a buffer at least as long as it announces, ends in a null pointer access; every other command is answered as with any device. [C107_rw_partial] C107: so every READ or WRITE which is in order (its namespace could execute it) crashes the kernel, if there is memory for its data. [C107_opened_partial] C107, partial: true if the block device could be opened and is that of an NVMe namespace. [C107_refuted] C107 is false: the module can be loaded without the block device, and then a READ crashes the kernel."
  },
  {
   "property": "C108",
   "status": "proved",
   "theorems": [
    "Scsi2Nvme.C108_trusted",
    "Scsi2Nvme.C108_durable",
    "Scsi2Nvme.C108_read_after_write",
    "Scsi2Nvme.C108_defined",
    "Scsi2Nvme.C108_driver"
   ],
   "note": "[C108_trusted] C108. The device may fail any command but does not report success for a Read or Write it did not execute. Any number of calls for different memory, made concurrently and interleaved in any way: there is an order in which the calls took effect one after the other, each as Trusted says - in particular a READ or WRITE answered with GOOD was executed completely and correctly. The order contains the calls which have returned, it respects their order in time (the order at a later moment prolongs the one at the earlier moment), and at either moment it explains the disks and the data buffers. [C108_durable] C108 (GOOD means stored). Let a WRITE begin after the moment y\u2080 and have returned GOOD at the moment y\u2081. If every other call which writes any of the blocks had returned at y\u2080 already (for instance failed attempts at the same WRITE), the blocks hold its data. [C108_read_after_write] C108 (GOOD means read). \u2026 and if then a READ of the same blocks begins and returns GOOD, its data buffer holds what the WRITE wrote: if every other call which writes any of the blocks had returned when the WRITE began. [C108_defined] C108 (safety). \u2026 and no interleaving has undefined behaviour (some MODE SENSE commands aside, see C81). [C108_driver] C108. The driver of the kernel is such a device over a block layer which can always give the command to the hardware, if the hardware is such a device. (Otherwise it reports success for commands it did not submit: C71.)"
  },
  {
   "property": "C109",
   "status": "proved",
   "theorems": [
    "Scsi2Nvme.C109_trusted",
    "Scsi2Nvme.C109_durable",
    "Scsi2Nvme.C109_read_after_write",
    "Scsi2Nvme.C109_stack"
   ],
   "note": "[C109_trusted] C109. The device may fail any command but does not report success for a Read or Write it did not execute. Any number of commands with different command blocks and sense buffers, handed to the kernel module concurrently, their calls interleaved in any way: there is an order in which the commands took effect one after the other, each as Relied says - in particular a READ or WRITE with result 0 was executed completely and correctly. The order contains the commands which are done, it respects their order in time, and at either moment it explains the disks. [C109_durable] C109 (result 0 means stored). Let the engine begin with a WRITE after the moment y\u2080, and let it be done with result 0 at the moment y\u2081. If every other command which writes any of the blocks was done at y\u2080 already (for instance failed attempts at the same WRITE), the blocks hold its data. [C109_read_after_write] C109 (result 0 means read). \u2026 and if the engine begins with a READ of the same blocks then, and it ends with result 0, its scatter-gather list begins with what the WRITE wrote: if every other command which writes any of the blocks was done when the WRITE began. [C109_stack] C109 (stack). The same through the driver of the kernel, over any block layer which can always give the command to the hardware: no interleaving has undefined behaviour (some MODE SENSE commands aside), and there is an order as in C109_trusted. (Without the assumption on the block layer, see C71.)"
  },
  {
   "property": "C110",
   "status": "partial",
   "theorems": [
    "Scsi2Nvme.C110_same",
    "Scsi2Nvme.C110_reported_partial",
    "Scsi2Nvme.C110_blind",
    "Scsi2Nvme.C110_message",
    "Scsi2Nvme.C110_refuted"
   ],
   "note": "[C110_same] The two models are the same, as far as the model without the details of the requests goes: what is said elsewhere about device B for every B holds of this driver. [C110_reported_partial] C110 (partial). It holds if the block layer writes what the device answers where special points. Missing: a block layer which reports in struct nvme_request only, see C110_blind. [C110_blind] C110, what happens otherwise: if the block layer writes nothing where special points, the engine returns GOOD for every command which is accepted and whose allocation length fits in the data buffer, whatever the device answers. [C110_message] C110. The message \"Linux error code\" is never printed: an error reported in struct nvme_request is always called an NVMe error code. [C110_refuted] C110 does not hold: the device answers a WRITE of two blocks with status 6, and the engine returns GOOD."
  },
  {
   "property": "C111",
   "status": "proved",
   "theorems": [
    "Scsi2Nvme.C111_requests",
    "Scsi2Nvme.C111_read",
    "Scsi2Nvme.C111_write"
   ],
   "note": "[C111_requests] C111. Every request executed during a call of the engine (for a command other than UNMAP) carries a command which does not transfer data both ways; the request is an output request exactly if the command transfers data from the host to the controller; and the buffer mapped is the one whose address is in bytes 24-31 of the command, with the length given by the wrapper, unless one of the two is 0. [C111_read] C111. For a READ at most one request is executed: an input request mapping as many bytes of the data buffer as the blocks have. [C111_write] C111. For a WRITE at most one request is executed: an output request mapping the whole data buffer."
  },
  {
   "property": "C112",
   "status": "partial",
   "theorems": [
    "Scsi2Nvme.C112_timeout_partial",
    "Scsi2Nvme.C112_refuted"
   ],
   "note": "[C112_timeout_partial] C112 (partial). The device is given 60 jiffies for every request, that is 60 seconds only if the kernel counts one jiffy per second. Missing: any other kernel, for which the time is 60 / HZ seconds. [C112_refuted] C112 does not hold: with 250 jiffies per second the timeout of a WRITE is 60 jiffies."
  },
  {
   "property": "C113",
   "status": "partial",
   "theorems": [
    "Scsi2Nvme.C113_status_partial",
    "Scsi2Nvme.C113_failed_partial",
    "Scsi2Nvme.C113_opcode_partial",
    "Scsi2Nvme.C113_refuted"
   ],
   "note": "[C113_status_partial] C113, part: what Complete returns, the state of the object afterwards and the callback calls do not depend on the contents of memory at all, as long as Complete returns. [C113_failed_partial] C113, part: the command block is not needed any more if the command is not going to be answered with GOOD status: Begin rejected it, or the device reported an error, or the number of completions is wrong. [C113_opcode_partial] C113, part: for the commands whose data goes directly between the device and the data buffer, or which have none, the operation code alone is needed. [C113_refuted] C113 does not hold: a READ(10) is executed, and meanwhile its command block is overwritten with an INQUIRY command: Complete reads through pointers in NVMe commands that were never built."
  },
  {
   "property": "C114",
   "status": "proved",
   "theorems": [
    "Scsi2Nvme.C114_requests",
    "Scsi2Nvme.C114_held",
    "Scsi2Nvme.C114_many"
   ],
   "note": "[C114_requests] C114. Whatever has happened before on an object, a call asks the allocator at most twice for one page of 4096 bytes, and each time also for zero pages of metadata; it asks for nothing else, and only Begin asks for anything. [C114_held] C114. For every allocator (with a way to hand back pages) and after every history of calls on an object, the object holds at most two pages. [C114_many] C114. Any number of objects used in any interleaving hold at most two pages each."
  },
  {
   "property": "C115",
   "status": "partial",
   "theorems": [
    "Scsi2Nvme.C115_catalogue",
    "Scsi2Nvme.C115_messages",
    "Scsi2Nvme.C115_rejected",
    "Scsi2Nvme.C115_quiet_partial",
    "Scsi2Nvme.C115_refuted",
    "Scsi2Nvme.C115_undefined",
    "Scsi2Nvme.C115_busy"
   ],
   "note": "[C115_catalogue] C115. Whatever the state of the object and of the world: every call of DebugLog executed by Begin is one of the calls in the catalogue extracted from the sources (file, line, format), with arguments of the types found there; so C100 applies to each. [C115_messages] C115. The texts which the debug callback gets during a call of Begin on an idle object are exactly remarks, in this order. [C115_rejected] C115. A command which Begin rejects is always complained about: something is logged besides the opening remark. [C115_quiet_partial] C115. \u2026 which holds for all commands but UNMAP, MODE SENSE(10) and MAINTENANCE IN, where control falls through into the next command. [C115_refuted] C115 is false: MAINTENANCE IN is complained about and then accepted as REPORT LUNS. [C115_undefined] C115. The formatting of a message has undefined behaviour exactly for the commands which reach REPORT LUNS with a bad SELECT REPORT value; all other messages are defined. [C115_busy] C115. A call of Begin on an object in use logs one message and nothing about the command."
  },
  {
   "property": "C116",
   "status": "proved",
   "theorems": [
    "Scsi2Nvme.C116_messages",
    "Scsi2Nvme.C116_unbegun",
    "Scsi2Nvme.C116_catalogue"
   ],
   "note": "[C116_messages] C116. Every call of Complete makes exactly the remarks closingRemarks says: one whose text is undefined if the number of completions is wrong; one if the sense buffer is too short, for a command which Begin rejected or of which an NVMe command failed, after one about its status code if that is not known; and after success those about the response (p0, p1: the pages the device filled). [C116_unbegun] C116. Complete on an object without a command says so, and nothing else. [C116_catalogue] C116. Whatever the state of the object and of the world: every call of DebugLog executed by Complete is one of the calls in the catalogue extracted from the sources (file, line, format), with arguments of the types found there. (The two numbers are values of C++ types.)"
  },
  {
   "property": "C117",
   "status": "partial",
   "theorems": [
    "Scsi2Nvme.C117_silent_partial",
    "Scsi2Nvme.C117_built_partial",
    "Scsi2Nvme.C117_refuted"
   ],
   "note": "[C117_silent_partial] C117, the part that holds: nothing is said about a successful READ, WRITE, SYNCHRONIZE CACHE, TEST UNIT READY, VERIFY, UNMAP or MAINTENANCE IN - the last one even if its data did not fit into the buffer and were dropped. [C117_built_partial] C117, the part that holds: with a data-in buffer of at least 64 bytes, the response of a successful command is built, unless it is an INQUIRY for a page which the library does not have, for device identification of a namespace without NGUID and EUI-64, or for extended inquiry data of a namespace with a combination of protection types which the library does not know, or a READ CAPACITY(10) of a namespace with blocks smaller than 512 bytes or larger than 2^31. [C117_refuted] C117 is false: a REQUEST SENSE whose data-in buffer has 4 bytes is answered with GOOD and without data."
  },
  {
   "property": "C118",
   "status": "partial",
   "theorems": [
    "Scsi2Nvme.C118_layouts_partial",
    "Scsi2Nvme.C118_refuted",
    "Scsi2Nvme.C118_others_partial"
   ],
   "note": "[C118_layouts_partial] C118, the part that holds: all but those of REPORT TIMESTAMP and of the command descriptors are. [C118_refuted] C118 is false: the structure for REPORT TIMESTAMP has no byte for the service action, and those for command descriptors none for the operation code. [C118_others_partial] C118, what they are: decoding the command block of REPORT TIMESTAMP behind the operation code takes bytes 5-8 for the allocation length (which is in bytes 6-9); the structures of command descriptors are right for the bytes behind the operation code."
  },
  {
   "property": "C119",
   "status": "partial",
   "theorems": [
    "Scsi2Nvme.C119_begin_partial",
    "Scsi2Nvme.C119_complete",
    "Scsi2Nvme.C119_refuted"
   ],
   "note": "[C119_begin_partial] C119 (partial): with every object in every state, for every command other than MODE SENSE(10), Begin does the same whatever follows the command in the command block. Missing: MODE SENSE(10), for which it does so if both command blocks have 12 bytes. [C119_complete] C119 for Complete: for every command, whatever the two objects are in the middle of, and whatever follows the command in the command block. [C119_refuted] C119 does not hold: a MODE SENSE(10) is rejected if the command block has its ten bytes, and executed as a REPORT LUNS if the command block has 16."
  },
  {
   "property": "C120",
   "status": "partial",
   "theorems": [
    "Scsi2Nvme.C120_submitted_partial",
    "Scsi2Nvme.C120_ignored",
    "Scsi2Nvme.C120_refuted"
   ],
   "note": "[C120_submitted_partial] C120 (partial): if all NVMe commands have already been submitted when the abort is asked for, then nothing reaches the device any more. Missing: the rest, which is the case the SCSI layer relies on. [C120_ignored] C120, what happens instead: success is reported, and the command goes on just as if the abort had not been asked for. [C120_refuted] C120 does not hold: a WRITE is aborted after Begin, with success; it is handed to the device nevertheless."
  },
  {
   "property": "C121",
   "status": "proved",
   "theorems": [
    "Scsi2Nvme.C121_synchronized",
    "Scsi2Nvme.C121_forced",
    "Scsi2Nvme.C121_driver"
   ],
   "note": "[C121_synchronized] C121 (SYNCHRONIZE CACHE). A device with a volatile write cache, which may fail any command. Let a WRITE begin after the moment y\u2080 and have returned GOOD at the moment y\u2081, and let a SYNCHRONIZE CACHE(10) for the same LUN begin after y\u2081 and have returned GOOD at y\u2082. Whatever calls there are besides and however they are interleaved, if those which write any of the blocks had returned at y\u2080 already: at every moment y\u2083 from then on, what is left on the disk if the power fails are the data of the WRITE. [C121_forced] C121 (FUA). \u2026 and a WRITE with FUA which was answered with GOOD needs no SYNCHRONIZE CACHE. [C121_driver] C121. The driver of the kernel is such a device over a block layer which can always give the command to the hardware, if the hardware is such a device."
  },
  {
   "property": "C122",
   "status": "proved",
   "theorems": [
    "Scsi2Nvme.C122_synchronized",
    "Scsi2Nvme.C122_forced"
   ],
   "note": "[C122_synchronized] C122 (SYNCHRONIZE CACHE). A device with a volatile write cache, which may fail any command. Let the engine begin with a WRITE after the moment y\u2080, let it be done with result 0 at the moment y\u2081, and let the engine begin with a SYNCHRONIZE CACHE(10) for the same LUN after y\u2081 which is done with result 0 at y\u2082. Whatever commands there are besides and however their calls are interleaved, if those which write any of the blocks were done at y\u2080 already: at every moment y\u2083 from then on, what is left on the disk if the power fails are the data of the WRITE. [C122_forced] C122 (FUA). \u2026 and a WRITE with FUA which is done with result 0 needs no SYNCHRONIZE CACHE."
  },
  {
   "property": "C123",
   "status": "proved",
   "theorems": [
    "Scsi2Nvme.C123_synchronized",
    "Scsi2Nvme.C123_forced",
    "Scsi2Nvme.C123_module_synchronized",
    "Scsi2Nvme.C123_module_forced"
   ],
   "note": "[C123_synchronized] C123 (SYNCHRONIZE CACHE). As in C121: a WRITE answered with GOOD, and then a SYNCHRONIZE CACHE(10) for the same LUN answered with GOOD. Then, at any moment, in the midst of other calls, the power fails; it fails any number of times more, with calls in between which are interleaved and cut off anywhere. If none of them writes any of the blocks, a READ of the blocks which is answered with GOOD after that delivers the data of the WRITE. [C123_forced] C123 (FUA). \u2026 and so it is, without a SYNCHRONIZE CACHE, if the WRITE had the FUA bit set. [C123_module_synchronized] C123 (module, SYNCHRONIZE CACHE). The same for commands handed to the kernel module. [C123_module_forced] C123 (module, FUA). \u2026"
  },
  {
   "property": "C124",
   "status": "proved",
   "theorems": [
    "Scsi2Nvme.C124_recent",
    "Scsi2Nvme.C124_recent_forced",
    "Scsi2Nvme.C124_data",
    "Scsi2Nvme.C124_data_forced",
    "Scsi2Nvme.C124_module_recent",
    "Scsi2Nvme.C124_module_recent_forced",
    "Scsi2Nvme.C124_module_data",
    "Scsi2Nvme.C124_module_data_forced",
    "Scsi2Nvme.C124_driver"
   ],
   "note": "[C124_recent] C124 (SYNCHRONIZE CACHE). A device with a volatile write cache, which may fail any command. Let a SYNCHRONIZE CACHE(10) begin after the moment y\u2081 and return GOOD. Whatever calls there are besides (also such as write the same blocks at the same time) and however they are interleaved: if the power fails at any moment y\u2082 after that, each byte of the LUN which is left is what commands saw of it at some moment between y\u2081 and y\u2082. [C124_recent_forced] C124 (FUA). The same for the bytes written by a WRITE with FUA which returns GOOD. [C124_data] C124 (data). Let a WRITE begin after the moment y\u2080 and have returned GOOD at the moment y\u2081, and let a SYNCHRONIZE CACHE(10) for the same LUN begin after y\u2081 and have returned GOOD at the moment y\u2082. If the power fails then, each byte of the blocks is a byte of the data of the WRITE, or of another WRITE which had not returned at y\u2080, so was made at the same time or later. (No assumption is made about the other calls.) [C124_data_forced] C124 (data, FUA). \u2026 and so it is for a WRITE with FUA as soon as it has returned GOOD, without SYNCHRONIZE CACHE. [C124_module_recent] C124 (kernel module, SYNCHRONIZE CACHE). \u2026 and so for commands through the kernel module: let the engine begin with a SYNCHRONIZE CACHE(10) after the moment y\u2081 and let it be done with result 0 at y\u2082. [C124_module_recent_forced] C124 (kernel module, FUA). The same for the bytes written by a WRITE with FUA which is done with result 0. [C124_module_data] C124 (kernel module, data). Let the engine begin with a WRITE after the moment y\u2080, let it be done with result 0 at the moment y\u2081, and let the engine begin with a SYNCHRONIZE CACHE(10) for the same LUN after y\u2081 which is done with result 0 at y\u2082. If the power fails then, each byte of the blocks is a byte of the data of the WRITE, or of another WRITE which was not done at y\u2080. [C124_module_data_forced] C124 (kernel module, data, FUA). \u2026 and so it is for a WRITE with FUA as soon as it is done with result 0. [C124_driver] C124 (driver). The driver of the kernel, over a block layer which can always give the command to the hardware, is such a device if the hardware is one."
  },
  {
   "property": "C125",
   "status": "proved",
   "theorems": [
    "Scsi2Nvme.C125_read",
    "Scsi2Nvme.C125_restart",
    "Scsi2Nvme.C125_module_read",
    "Scsi2Nvme.C125_driver"
   ],
   "note": "[C125_read] C125. A device with a volatile write cache which commits what it reads with FUA, and which may fail any command. Let a READ with the FUA bit begin after the moment y\u2080 and have returned GOOD at the moment y\u2081. Whatever calls there are besides and however they are interleaved, if those which write any of the blocks had returned at y\u2080 already: what is left on the disk if the power fails (at y\u2081, which is any moment from then on) is what the READ delivered. [C125_restart] C125 (power failures). \u2026 and a READ of the blocks which is answered with GOOD after any number of power failures delivers the same data again, if no call since the first failure writes any of them. [C125_module_read] C125 (module). The same for commands handed to the kernel module. [C125_driver] C125 (driver). The driver of the kernel, over a block layer which can always give the command to the hardware, is such a device if the hardware is one."
  },
  {
   "property": "C126",
   "status": "proved",
   "theorems": [
    "Scsi2Nvme.C126_logged",
    "Scsi2Nvme.C126_module_logged",
    "Scsi2Nvme.C126_sync_needed"
   ],
   "note": "[C126_logged] C126. A device with a volatile write cache, which may fail any command. A caller writes a record to a log (W), synchronizes the cache (S), and only then writes over the data (C): it does not begin S before W, and not C before S, has returned GOOD. Other calls, in any number and interleaved in any way, write neither the record nor the data. The power fails at any moment, also in the midst of any call, and any number of times more. Then either the data are what they were before, or the record is complete: a READ of the one delivers the old data, or a READ of the other the record (if they are answered with GOOD). [C126_module_logged] C126 (module). The same for commands handed to the kernel module. [C126_sync_needed] Without the SYNCHRONIZE CACHE between them the order of the two WRITEs does not matter: with the device, the record (call 0) and the data (call 2) of the example of C126_logged, both WRITEs return GOOD, the one begun after the other has returned, and a power failure leaves the data overwritten and the record lost."
  }
 ]
}