{
 "C06": {
  "note": "The full statement is false of the code (refuted in Lean with a concrete run). MODE SENSE(10) falls through to REPORT LUNS and overwrites an allocation record. Proved for every allocator: no page (range of at least one page) is ever lost, no double free, nothing freed that was not allocated. Balance under allocators answering 0 to empty requests is C05 (proved)."
 },
 "C10": {
  "note": "The full statement is false of the code (refuted in Lean with a concrete run). C10_exact_partial is an if-and-only-if: it names every case with undefined behaviour and proves there is no other."
 },
 "C15": {
  "note": "The full statement is false of the code (refuted in Lean with a concrete run). What is reported instead is settled by C15_unreported (GOOD always) and, with the exact bytes, by C79 (proved)."
 },
 "C17": {
  "note": "The full statement is false of the code (refuted in Lean with a concrete run). Only reserved bits are undetermined; the exact eight bytes as a function of status and stack contents are part of C79 (proved)."
 },
 "C21": {
  "note": "The full statement is false of the code (refuted in Lean with a concrete run). Block counts of WRITE(12)/(16) are truncated modulo 65536 (C21_write_all gives the exact command for every count; also part of C78)."
 },
 "C23": {
  "note": "The full statement is false of the code (refuted in Lean with a concrete run). WRITE does not look at the buffer length."
 },
 "C26": {
  "note": "The full statement is false of the code (refuted in Lean with a concrete run). The namespace id is always 0 (exact: C26_verify_namespace_partial)."
 },
 "C28": {
  "note": "The full statement is false of the code (refuted in Lean with a concrete run). Because of a missing break every conforming UNMAP is rejected (C28_conforming_rejected, for all parameter lists); exactly which UNMAP blocks are accepted and what is handed out is C69 (proved). The translator function itself is right: C27 (proved)."
 },
 "C29": {
  "note": "The full statement is false of the code (refuted in Lean with a concrete run). Only UNMAP (which falls through into MODE SENSE(6)) is excepted, and covered exactly by C69 and C78."
 },
 "C30": {
  "note": "The full statement is false of the code (refuted in Lean with a concrete run). Excepted are VERIFY(10) (namespace 0, C26) and UNMAP (C69)."
 },
 "C31": {
  "note": "The full statement is false of the code (refuted in Lean with a concrete run). Excepted is UNMAP: its first command slot may be left over from an earlier command; exact: C69, C78 (the function of C78 has the old slots as an argument)."
 },
 "C32": {
  "note": "The full statement is false of the code (refuted in Lean with a concrete run). The lengths of Flush, Compare and Get Features are left over; exact: C32_leftover_partial, C78."
 },
 "C35": {
  "note": "The full statement is false of the code (refuted in Lean with a concrete run). Page 86h is listed but not answered if DPC = 0. Exact answers of all VPD pages for all buffers: C76 (proved)."
 },
 "C36": {
  "note": "The full statement is false of the code (refuted in Lean with a concrete run). Identifiers with leading zero digits are not padded correctly. Exact bytes for all identifiers: C76; exactly when stack bytes leak: C77 (both proved)."
 },
 "C37": {
  "note": "The full statement is false of the code (refuted in Lean with a concrete run). C77 (proved) is the exact condition for the leak."
 },
 "C38": {
  "note": "The full statement is false of the code (refuted in Lean with a concrete run). The header has 3 bytes. Exact bytes: C76 (proved)."
 },
 "C39": {
  "note": "The full statement is false of the code (refuted in Lean with a concrete run). Nothing is written when DPC = 0. Exact: C76 (proved)."
 },
 "C40": {
  "note": "The full statement is false of the code (refuted in Lean with a concrete run). The table has its bits in swapped order. Exact: C76 (proved)."
 },
 "C42": {
  "note": "The full statement is false of the code (refuted in Lean with a concrete run). The lengths of 86h, B0h, B1h are stored little endian, B1h has code 83h, 83h has a 3-byte head. Exact: C76 (proved)."
 },
 "C45": {
  "note": "The full statement is false of the code (refuted in Lean with a concrete run). NSZE is returned, not NSZE - 1. The exact eight bytes: C44 (proved)."
 },
 "C46": {
  "note": "The full statement is false of the code (refuted in Lean with a concrete run). Only buffers of 4 GiB and more are excepted, where the room is counted modulo 2^32 (C46_report_luns_exact gives all sizes)."
 },
 "C47": {
  "note": "The full statement is false of the code (refuted in Lean with a concrete run). Excepted are VERIFY(10) and UNMAP (see C30)."
 },
 "C51": {
  "note": "The full statement is false of the code (refuted in Lean with a concrete run). With DBD = 0 the bit is taken from the completion of Identify instead of Get Features (C51_wce_first_partial is exact)."
 },
 "C52": {
  "note": "The full statement is false of the code (refuted in Lean with a concrete run). Through a missing break every 10-byte MODE SENSE(10) is rejected; what longer blocks do is C52_mode_sense10_exact_partial (exact)."
 },
 "C53": {
  "note": "The full statement is false of the code (refuted in Lean with a concrete run). MAINTENANCE IN falls through to REPORT LUNS; acceptance and commands exactly in C53_maintenance_in_partial, the answer in C53_data_partial."
 },
 "C58": {
  "note": "The full statement is false of the code (refuted in Lean with a concrete run). The early return of the engine (announced length larger than the data buffer) loses the pages; C58_leak proves it does so always."
 },
 "C64": {
  "note": "The full statement is false of the code (refuted in Lean with a concrete run). Excepted are UNMAP and MODE SENSE(10); their exact announced lengths are in C78."
 },
 "C65": {
  "note": "The full statement is false of the code (refuted in Lean with a concrete run). Excepted is UNMAP with reserved bits set, which can replay an earlier WRITE; exact: C69."
 },
 "C66": {
  "note": "The full statement is false of the code (refuted in Lean with a concrete run). C66_characteristics_partial gives the exact bytes written for every buffer."
 },
 "C71": {
  "note": "The full statement is false of the code (refuted in Lean with a concrete run). The engine ignores the return code of the driver; C71_silent proves what happens then."
 },
 "C75": {
  "note": "The full statement is false of the code (refuted in Lean with a concrete run). bufflen is truncated to 16 bits: C75_long_read proves all affected READs fail."
 },
 "C81": {
  "note": "The full statement is false of the code (refuted in Lean with a concrete run). C81_exact_partial is an if-and-only-if."
 },
 "C85": {
  "note": "The full statement is false of the code (refuted in Lean with a concrete run). C85_left_behind_partial gives exactly what remains after every history: the block device handle of each life in which it could be opened, and the device reference of each life whose device_register failed."
 },
 "C86": {
  "note": "The full statement is false of the code (refuted in Lean with a concrete run). The result of nvme_driver_init is ignored. C86_load_exact_partial says exactly when loading succeeds and when the namespace is available."
 },
 "C87": {
  "note": "The full statement is false of the code (refuted in Lean with a concrete run). The counter of registered hosts is never decreased; C87_bind_exact_partial is an exact equation, C87_host_once covers all histories."
 },
 "C88": {
  "note": "The full statement is false of the code (refuted in Lean with a concrete run). READ uses a fixed 4096-byte block; C88_exact_partial says the two agree exactly for namespaces with 4096-byte blocks."
 },
 "C89": {
  "note": "The full statement is false of the code (refuted in Lean with a concrete run). PRP entry 2 is never set; C89_exact_partial says the transfer is completely described exactly if it is one block into a page-aligned buffer."
 }
}