{"id": "C01", "title": "API protocol automaton", "statement": "For every sequence of Begin / GetNvmeWrappers / Complete / AbortPipeline calls on one Translation object, the returned ApiStatus values are exactly those of the two-state automaton idle / pending(n): Begin succeeds iff idle, Complete succeeds iff pending(n) and exactly n completions are supplied, and every Complete (successful or rejected while pending) and every AbortPipeline returns to idle.", "quantifier": "all finite histories of API calls, all CDBs, LUNs, data/sense buffers, completion lists, allocator behaviours", "why_tests_cant": "tests run a handful of fixed call sequences; the property is over all interleavings of any length", "anchors": ["lib/translator/translation.cc: Begin, Complete, AbortPipeline, GetNvmeWrappers", "lib/translator/translation.h: ApiStatus"]}
{"id": "C02", "title": "Rejected API calls have no effect", "statement": "A Begin made while a command is pending, and a Complete made while idle, return an API failure with alloc_len 0 / status 0, touch no memory, call no allocator callback and leave the pending command list unchanged.", "quantifier": "all states of the object, all arguments, all memory contents", "why_tests_cant": "requires inspecting all of memory and all subsequent behaviour for every state", "anchors": ["lib/translator/translation.cc: Begin:40-44, Complete:176-180"]}
{"id": "C03", "title": "Bounded command list", "statement": "GetNvmeWrappers never yields more than 3 commands, the span always lies inside the object, and it is empty whenever the object is idle or the last command was rejected.", "quantifier": "all histories, all CDBs, all allocator behaviours", "why_tests_cant": "the count is accumulated along fall-through switch cases; only an exhaustive argument over histories excludes an out-of-bounds wrapper", "anchors": ["lib/translator/translation.cc: GetNvmeWrappers, Begin", "lib/translator/common.h: kMaxCommandRatio", "lib/translator/mode_sense.cc: ModeSenseToNvme"]}
{"id": "C04", "title": "Number of commands per SCSI opcode", "statement": "An accepted INQUIRY yields exactly two NVMe commands; READ, WRITE, VERIFY(10), SYNCHRONIZE CACHE(10), READ CAPACITY(10), REPORT LUNS yield exactly one; TEST UNIT READY and REQUEST SENSE yield none; MODE SENSE(6) yields one per block descriptor requested plus one if the caching page is requested.", "quantifier": "all CDBs, LUNs, buffers and object histories", "why_tests_cant": "depends on the state left by previous commands because the counter is a member variable", "anchors": ["lib/translator/translation.cc: Begin"]}
{"id": "C05", "title": "Page allocation balance", "statement": "With an allocator that answers 0 to a zero-page request, over any history every page range obtained from the allocation callback is handed back exactly once, with the same address and page count, nothing else is ever handed back, and whenever the object is idle nothing is outstanding.", "quantifier": "all histories of API calls, all CDBs, allocators with arbitrary success/failure pattern and addresses", "why_tests_cant": "leaks and double frees appear only for particular failure patterns and call orders", "anchors": ["lib/translator/translation.cc: FlushMemory, AbortPipeline, Begin", "lib/translator/common.cc: SetPages, AllocPages, DeallocPages"]}
{"id": "C06", "title": "Page allocation balance for every allocator", "statement": "The balance of C05 holds for every allocator, including one that returns a non-zero address for a zero-page request.", "quantifier": "all histories, all allocators", "why_tests_cant": "needs an adversarial allocator in every failure pattern", "anchors": ["lib/translator/common.cc: SetPages", "lib/translator/translation.cc: FlushMemory"]}
{"id": "C07", "title": "Begin is memory safe", "statement": "Begin never reads or writes outside the CDB, the data buffer, the object and pages it allocated, never dereferences null, for every CDB and buffer content and every allocator outcome.", "quantifier": "all CDB bytes and lengths, all buffer bytes and lengths, all LUNs, all object histories, all well-behaved allocators", "why_tests_cant": "out-of-bounds behaviour depends on lengths and contents; a test cannot enumerate them", "anchors": ["lib/translator/translation.cc: Begin", "lib/translator/unmap.cc: UnmapToNvme", "lib/translator/common.h: ReadValue, Span"]}
{"id": "C08", "title": "Begin changes only its own pages", "statement": "Begin leaves every byte of memory outside the pages it has just allocated unchanged; in particular caller data buffers are never modified by Begin.", "quantifier": "all inputs, all addresses", "why_tests_cant": "universal over all memory addresses", "anchors": ["lib/translator/translation.cc: Begin", "lib/translator/unmap.cc:90-103"]}
{"id": "C09", "title": "Complete writes only where it is told to", "statement": "Complete modifies no byte outside the data-in buffer span, the sense buffer span and the pages handed back to the allocator.", "quantifier": "all inputs, all pending commands, all completions, all device-written page contents, all addresses", "why_tests_cant": "universal over all memory addresses and device-provided contents", "anchors": ["lib/translator/translation.cc: Complete", "lib/translator/inquiry.cc", "lib/translator/mode_sense.cc", "lib/translator/report_luns.cc", "lib/translator/common.h: WriteValue"]}
{"id": "C10", "title": "Complete is memory safe", "statement": "Complete never exhibits undefined behaviour (out-of-bounds access, null dereference, over-wide shift, missing return) for any accepted command, whatever the device wrote to the pages and whatever buffer sizes the caller passes.", "quantifier": "all accepted commands, all device-written contents, all buffer sizes", "why_tests_cant": "device-controlled content and caller-controlled sizes are unbounded", "anchors": ["lib/translator/translation.cc: Complete:232-241", "lib/translator/mode_sense.cc: WriteBlockDescriptor, WritePageData"]}
{"id": "C11", "title": "Rejected commands report ILLEGAL REQUEST", "statement": "If Begin could not translate a command then there are no NVMe commands to run and Complete with no completions returns CHECK CONDITION with descriptor sense ILLEGAL REQUEST / INVALID FIELD IN CDB (05h/24h/00h) when the sense buffer holds at least 8 bytes, and leaves the data-in buffer unchanged.", "quantifier": "all CDBs Begin rejects, all sense and data buffers", "why_tests_cant": "the set of rejected CDBs is unbounded", "anchors": ["lib/translator/translation.cc: Begin:165-168, Complete:192-203", "lib/translator/common.cc: FillSenseBuffer"]}
{"id": "C12", "title": "First device error wins", "statement": "If some completion carries a failing NVMe status, Complete returns the SCSI status translated from the first failing one, writes the corresponding sense key/ASC/ASCQ, and leaves the data-in buffer untouched.", "quantifier": "all pending commands, all completion lists with at least one failing status", "why_tests_cant": "all combinations of statuses in lists of up to three completions", "anchors": ["lib/translator/translation.cc: Complete:206-217", "lib/translator/status.cc"]}
{"id": "C13", "title": "NVMe to SCSI status table", "statement": "Every NVMe (status code type, status code) pair is translated to the SCSI status, sense key, ASC and ASCQ prescribed by the SCSI translation reference table, with CHECK CONDITION / NO SENSE for unlisted codes.", "quantifier": "all 8 status code types x 256 status codes", "why_tests_cant": "tests cover only a few of the 2048 pairs", "anchors": ["lib/translator/status.cc: StatusToScsi"]}
{"id": "C14", "title": "GOOD exactly when the device succeeded", "statement": "For an accepted command Complete returns GOOD exactly if every NVMe completion has status code type 0 and status code 0.", "quantifier": "all accepted commands, all completion lists of the right length", "why_tests_cant": "universal over completion contents", "anchors": ["lib/translator/translation.cc: Complete", "lib/translator/status.cc: StatusToScsi"]}
{"id": "C15", "title": "Failed back-translation is reported to the initiator", "statement": "If the response data cannot be produced (data-in buffer too small, unsupported VPD page, unusable identify data) Complete does not return GOOD.", "quantifier": "all accepted commands and buffer sizes", "why_tests_cant": "universal over buffer sizes and device data", "anchors": ["lib/translator/translation.cc: Complete:282-287"]}
{"id": "C16", "title": "Sense data format", "statement": "Whenever Complete reports a status other than GOOD and the sense buffer has at least 8 bytes, exactly its first 8 bytes are written: response code 72h, the sense key in the low nibble of byte 1, ASC, ASCQ, and additional length 0; a shorter sense buffer is not written at all.", "quantifier": "all statuses, all sense buffer sizes", "why_tests_cant": "universal over statuses and sizes", "anchors": ["lib/translator/common.cc: FillSenseBuffer", "lib/scsi.h: DescriptorFormatSenseData"]}
{"id": "C17", "title": "Sense data is fully determined", "statement": "The sense bytes returned to the initiator depend only on the status being reported, not on uninitialised stack memory.", "quantifier": "all indeterminate stack contents", "why_tests_cant": "indeterminate values look deterministic in any single run", "anchors": ["lib/translator/common.cc:206-212"]}
{"id": "C18", "title": "READ translation", "statement": "A READ(6/10/12/16) that is accepted yields one NVMe Read on the I/O queue whose starting LBA, block count, FUA, protection bits, namespace and data pointer are those of the CDB, LUN and buffer, and BeginResponse.alloc_len is the block count times 4096.", "quantifier": "all LBAs, transfer lengths, flag combinations, LUNs, buffers, object histories", "why_tests_cant": "2^96 and more CDB values; bit packing errors show only for some", "anchors": ["lib/translator/read.cc", "lib/scsi.h: Read6Command, Read10Command, Read12Command, Read16Command"]}
{"id": "C19", "title": "READ acceptance", "statement": "READ(10/12/16) is accepted exactly if the CDB is complete, 1 <= blocks <= 65535, the protection code is 0..5 and the data buffer holds blocks*4096 bytes; READ(6) exactly if the CDB is complete and the buffer is large enough, with length 0 meaning 256 blocks.", "quantifier": "all CDBs and buffer sizes", "why_tests_cant": "boundary over unbounded inputs", "anchors": ["lib/translator/read.cc: Read, LegacyRead, BuildPrinfo"]}
{"id": "C20", "title": "READ never overruns the buffer", "statement": "For an accepted READ the bytes the device will transfer (blocks in the NVMe command times 4096) equal the announced buffer length and fit in the caller's buffer.", "quantifier": "all accepted READ CDBs and buffers", "why_tests_cant": "universal over lengths", "anchors": ["lib/translator/read.cc: LegacyRead:74-82"]}
{"id": "C21", "title": "WRITE translation", "statement": "An accepted WRITE(6/10/12/16) yields one NVMe Write on the I/O queue whose starting LBA, block count, FUA, protection bits, namespace and data pointer are those of the CDB, LUN and buffer.", "quantifier": "all LBAs, transfer lengths, flags, LUNs, buffers", "why_tests_cant": "transfer lengths above 65535 are representable in the CDB but not in the NVMe command", "anchors": ["lib/translator/write.cc"]}
{"id": "C22", "title": "WRITE acceptance", "statement": "WRITE(10/12/16) is accepted exactly if the CDB is complete, the length is non-zero and the protection code is 0..5; WRITE(6) exactly if the CDB is complete.", "quantifier": "all CDBs", "why_tests_cant": "boundary over unbounded inputs", "anchors": ["lib/translator/write.cc: Write, BuildPRInfo"]}
{"id": "C23", "title": "WRITE stays inside the data-out buffer", "statement": "For an accepted WRITE the bytes the device will fetch (blocks times 4096) fit in the caller's data-out buffer.", "quantifier": "all accepted WRITE CDBs and buffers", "why_tests_cant": "universal over lengths", "anchors": ["lib/translator/write.cc: LegacyWrite, Write"]}
{"id": "C24", "title": "SYNCHRONIZE CACHE translation", "statement": "SYNCHRONIZE CACHE(10) always yields one NVMe Flush on the I/O queue for the LUN's namespace with every other field zero.", "quantifier": "all CDB contents after the opcode, all LUNs", "why_tests_cant": "universal over CDBs and stale object state", "anchors": ["lib/translator/synchronize_cache.cc"]}
{"id": "C25", "title": "VERIFY translation", "statement": "An accepted VERIFY(10) yields one NVMe Compare on the I/O queue with the CDB's LBA, block count and the protection-check bits prescribed for BYTCHK/VRPROTECT; it is accepted exactly if the CDB is complete, the length is non-zero and NACA is 0.", "quantifier": "all CDBs and LUNs", "why_tests_cant": "universal over CDB fields", "anchors": ["lib/translator/verify.cc"]}
{"id": "C26", "title": "VERIFY addresses the LUN's namespace", "statement": "The NVMe command produced for VERIFY(10) carries the namespace id of the addressed LUN.", "quantifier": "all accepted VERIFY CDBs and LUNs", "why_tests_cant": "universal over LUNs", "anchors": ["lib/translator/verify.cc:96-120"]}
{"id": "C27", "title": "UNMAP range translation", "statement": "The UNMAP translator, on a valid parameter list with 1..256 block descriptors, fills the allocated page with one dataset-management range per descriptor, in order, with exactly the descriptor's LBA and block count, and produces a Dataset Management/Deallocate command for that many ranges; it is accepted exactly under the documented length checks.", "quantifier": "all parameter lists, any number of descriptors, all allocator outcomes", "why_tests_cant": "up to 256 descriptors of 96 significant bits each", "anchors": ["lib/translator/unmap.cc: UnmapToNvme"]}
{"id": "C28", "title": "UNMAP works through the API", "statement": "A standard-conforming UNMAP CDB with a valid parameter list passed to Begin yields one Dataset Management command.", "quantifier": "all conforming CDBs and parameter lists", "why_tests_cant": "the translation is destroyed by a later switch case; the claim is about all conforming inputs", "anchors": ["lib/translator/translation.cc: Begin:67-75"]}
{"id": "C29", "title": "Commands go to the right queue", "statement": "Every produced command is flagged admin exactly if its opcode is meant for the admin queue (Identify, Get Features) and I/O otherwise (Flush, Write, Read, Compare, Dataset Management).", "quantifier": "all accepted CDBs, all histories", "why_tests_cant": "universal over accepted CDBs", "anchors": ["lib/translator/*.cc: is_admin assignments", "lib/translator/unmap.cc:116"]}
{"id": "C30", "title": "LUN to namespace mapping", "statement": "For LUNs below 2^32-1 every produced command that addresses a namespace carries namespace id LUN+1, so distinct LUNs never share a namespace.", "quantifier": "all LUNs, all accepted CDBs", "why_tests_cant": "64-bit LUN space", "anchors": ["lib/translator/translation.cc: Begin:57"]}
{"id": "C31", "title": "History independence of Begin", "statement": "Two idle objects, whatever commands they processed before, given the same CDB, buffer, LUN and allocator answers, return the same response, the same number of commands and the same command bytes and queue flags.", "quantifier": "all pairs of histories, all inputs", "why_tests_cant": "two-run (relational) property over all histories", "anchors": ["lib/translator/translation.cc: Begin, nvme_wrappers_, nvme_cmd_count_"]}
{"id": "C32", "title": "History independence of the announced buffer length", "statement": "Same as C31 for the announced buffer length of every command.", "quantifier": "all pairs of histories, all inputs", "why_tests_cant": "two-run property; stale member variables look plausible in a test", "anchors": ["lib/translator/synchronize_cache.cc", "lib/translator/verify.cc", "lib/translator/mode_sense.cc:100-126"]}
{"id": "C33", "title": "INQUIRY commands", "statement": "An accepted INQUIRY yields Identify Namespace for the LUN's namespace into one fresh page and Identify Controller into another, and announces the CDB's big-endian allocation length; it is accepted exactly if the CDB is complete and both pages can be allocated.", "quantifier": "all CDBs, LUNs, allocators", "why_tests_cant": "universal over allocator outcomes", "anchors": ["lib/translator/inquiry.cc: InquiryToNvme"]}
{"id": "C34", "title": "Standard INQUIRY data", "statement": "For EVPD=0 and a buffer of at least 36 bytes Complete writes exactly the 36 bytes prescribed by the translation reference from the identify pages (type, version, protect, cmdque, vendor, product id = first 16 bytes of MN, revision = last four graphic characters of FR right-aligned) and nothing more.", "quantifier": "all identify page contents, all buffers", "why_tests_cant": "4096-byte pages; revision filtering is a loop over arbitrary bytes", "anchors": ["lib/translator/inquiry.cc: TranslateStandardInquiry"]}
{"id": "C35", "title": "VPD page list and dispatch", "statement": "VPD page 00h lists exactly 00,80,83,86,B0,B1,B2, and a VPD request is answered exactly for the listed pages: any other page code leaves the buffer untouched.", "quantifier": "all page codes, all buffers", "why_tests_cant": "256 page codes x arbitrary buffers", "anchors": ["lib/translator/inquiry.cc: TranslateSupportedVpdPages, InquiryToScsi"]}
{"id": "C36", "title": "Unit serial number page", "statement": "VPD 80h carries the NGUID, else the EUI-64, else SN_NSID in the documented format with page length 40/20/30; every identifier digit appears in hexadecimal, most significant first, grouped by underscores.", "quantifier": "all identify contents, NSIDs and buffers", "why_tests_cant": "2^128 identifiers; formatting depends on leading zeros", "anchors": ["lib/translator/inquiry.cc: TranslateUnitSerialNumberVpd"]}
{"id": "C37", "title": "Serial number page leaks no indeterminate bytes", "statement": "VPD 80h contents depend only on the identify data, not on uninitialised stack memory.", "quantifier": "all identifiers, all stack contents", "why_tests_cant": "only some identifiers (short hexadecimal halves) expose it, and a single run looks deterministic", "anchors": ["lib/translator/inquiry.cc:219-258"]}
{"id": "C38", "title": "Device identification page", "statement": "VPD 83h carries one EUI-64 designator holding the NGUID if non-zero, else the EUI-64; with neither nothing is written. The page length field counts the bytes that follow.", "quantifier": "all identifiers, all buffers", "why_tests_cant": "universal over identifiers and buffer sizes", "anchors": ["lib/translator/inquiry.cc: TranslateDeviceIdentificationVpd, BuildIdentificationDescriptor"]}
{"id": "C39", "title": "Extended INQUIRY page content", "statement": "VPD 86h reports the check bits from DPS, the volatile-cache bit from VWC and the fixed support bits prescribed by the translation reference in 14 bytes.", "quantifier": "all identify contents, all buffers", "why_tests_cant": "universal over identify pages", "anchors": ["lib/translator/inquiry.cc: TranslateExtendedInquiryDataVpd"]}
{"id": "C40", "title": "Supported protection type", "statement": "The SPT field of VPD 86h encodes the set of protection information types in DPC (bit 0 type 1, bit 1 type 2, bit 2 type 3) as in SPC-4: {1}->000 {1,2}->001 {2}->010 {1,3}->011 {3}->100 {2,3}->101 {1,2,3}->111.", "quantifier": "all DPC values", "why_tests_cant": "a bit-order slip is invisible for symmetric values", "anchors": ["lib/translator/inquiry.cc: GetSptValueFromDPC"]}
{"id": "C41", "title": "Block limits page content", "statement": "VPD B0h reports big-endian maximum transfer length 2^MDTS (0 if MDTS=0, capped at 2^16), compare-and-write length min(255) if fused compare-and-write is supported else 0, and unmap limits from ONCS; all other limits 0.", "quantifier": "all identify contents, all buffers", "why_tests_cant": "universal over MDTS/ONCS/FUSES", "anchors": ["lib/translator/inquiry.cc: TranslateBlockLimitsVpd"]}
{"id": "C42", "title": "VPD headers are well formed", "statement": "Every VPD page Complete writes has the requested page code in byte 1 and a big-endian page length in bytes 2-3 equal to the number of bytes the page defines after byte 3.", "quantifier": "all supported page codes, all identify contents", "why_tests_cant": "needs checking of every page against every identify content", "anchors": ["lib/translator/inquiry.cc: Translate*", "lib/scsi.h: PageLength, DeviceIdentificationVpd"]}
{"id": "C43", "title": "Logical block provisioning page", "statement": "VPD B2h reports LBPU and LBPRZ exactly if deallocate is supported and provisioning type full/resource/thin from ONCS and NSFEAT.", "quantifier": "all identify contents, all buffers", "why_tests_cant": "universal over identify contents", "anchors": ["lib/translator/inquiry.cc: TranslateLogicalBlockProvisioningVpd"]}
{"id": "C44", "title": "READ CAPACITY block length and size", "statement": "For an LBA data size in 9..31 Complete writes 8 bytes: big-endian min(NSZE, FFFFFFFFh) and big-endian 2^LBADS of the LBA format in use; for any other LBADS nothing is written.", "quantifier": "all identify namespace contents, all buffers", "why_tests_cant": "64-bit sizes, 16 formats", "anchors": ["lib/translator/read_capacity_10.cc"]}
{"id": "C45", "title": "READ CAPACITY returns the last LBA", "statement": "The RETURNED LOGICAL BLOCK ADDRESS field is the address of the last logical block (NSZE-1) when it fits in 32 bits.", "quantifier": "all namespace sizes", "why_tests_cant": "universal over sizes", "anchors": ["lib/translator/read_capacity_10.cc:76-81"]}
{"id": "C46", "title": "REPORT LUNS list", "statement": "Complete writes the LUN list of the active namespaces: the big-endian byte length and one big-endian 64-bit LUN (NSID-1) per namespace id up to the first zero id (at most 1024), truncated to what fits in the buffer, and nothing beyond it.", "quantifier": "all namespace lists, all buffer sizes >= 8", "why_tests_cant": "up to 1024 entries and arbitrary buffer sizes", "anchors": ["lib/translator/report_luns.cc"]}
{"id": "C47", "title": "LUN round trip", "statement": "Any LUN reported by REPORT LUNS, passed back to Begin, addresses exactly the namespace it was reported for.", "quantifier": "all namespace ids", "why_tests_cant": "32-bit id space crossing two API calls", "anchors": ["lib/translator/report_luns.cc:117-118", "lib/translator/translation.cc: Begin:57"]}
{"id": "C48", "title": "REQUEST SENSE", "statement": "REQUEST SENSE needs no NVMe command, announces the CDB's allocation length and returns all-zero current sense in descriptor (8 bytes) or fixed (18 bytes) format according to DESC; NACA=1 is rejected.", "quantifier": "all CDBs, all buffers", "why_tests_cant": "universal over buffers", "anchors": ["lib/translator/request_sense.cc"]}
{"id": "C49", "title": "MODE SENSE(6) commands", "statement": "MODE SENSE(6) is accepted exactly for pages 08h, 0Ah, 1Ah, 3Fh with a complete CDB, a page control other than saved for the caching pages, and a successful allocation when block descriptors are requested; it yields Identify Namespace if DBD=0 and Get Features (volatile write cache) with the select value for the page control if the caching page is requested.", "quantifier": "all CDBs, LUNs, allocators, histories", "why_tests_cant": "depends on several CDB fields jointly and on allocator failure", "anchors": ["lib/translator/mode_sense.cc: ModeSense6ToNvme, ModeSenseToNvme"]}
{"id": "C50", "title": "MODE SENSE(6) data", "statement": "For a large enough buffer Complete writes header, optional short block descriptor and the requested mode pages with a mode data length that counts exactly the bytes that follow it; a smaller buffer receives a prefix made of whole structures.", "quantifier": "all identify contents, feature values and buffers with at least one NVMe command", "why_tests_cant": "universal over pages, contents and sizes", "anchors": ["lib/translator/mode_sense.cc: ModeSenseToScsi, GetModeDataLength"]}
{"id": "C51", "title": "MODE SENSE(6) reports the write-cache state", "statement": "The WCE bit returned for the caching page is bit 0 of the Get Features completion.", "quantifier": "all CDBs requesting the caching page, all completions", "why_tests_cant": "universal over completions", "anchors": ["lib/translator/translation.cc: Complete:232-236", "lib/translator/mode_sense.cc: WritePageData"]}
{"id": "C52", "title": "MODE SENSE(10) works through the API", "statement": "A conforming 10-byte MODE SENSE(10) for a supported page is translated and answered.", "quantifier": "all conforming MODE SENSE(10) CDBs", "why_tests_cant": "the translation is discarded by a later switch case for every input", "anchors": ["lib/translator/translation.cc: Begin:76-90"]}
{"id": "C53", "title": "REPORT SUPPORTED OPERATION CODES", "statement": "MAINTENANCE IN is accepted exactly for REPORT SUPPORTED OPERATION CODES of WRITE SAME(16) with reporting option 1, needs no NVMe command, and answers 'not supported'.", "quantifier": "all CDBs", "why_tests_cant": "universal over CDBs", "anchors": ["lib/translator/maintenance_in.cc", "lib/translator/translation.cc: Begin:80-90"]}
{"id": "C54", "title": "TEST UNIT READY", "statement": "TEST UNIT READY always succeeds with no NVMe command and GOOD status, without touching buffers.", "quantifier": "all CDBs starting with 00h, all histories and buffers", "why_tests_cant": "universal over histories", "anchors": ["lib/translator/translation.cc: Begin:133-138, Complete:269-275"]}
{"id": "C55", "title": "Unknown opcodes are refused", "statement": "Every opcode outside the supported set is refused: no NVMe command, no allocation, alloc_len 0 and CHECK CONDITION on Complete.", "quantifier": "all 256 opcodes, all CDBs", "why_tests_cant": "universal over opcodes and payloads", "anchors": ["lib/translator/translation.cc: Begin:159-162"]}
{"id": "C56", "title": "Engine never reports more data than the buffer holds", "statement": "ScsiToNvme never returns an alloc_len larger than the data buffer length and never hands Complete a data-in span larger than the buffer.", "quantifier": "all CDBs, buffers, devices", "why_tests_cant": "universal over CDB allocation lengths", "anchors": ["third_party/e2e/engine.cc: ScsiToNvme"]}
{"id": "C57", "title": "Engine uses the API correctly", "statement": "In ScsiToNvme neither Begin nor Complete ever returns an API failure, whatever the device does; hence 40h is returned only for the over-long allocation length or a translated TASK ABORTED.", "quantifier": "all CDBs, devices, allocators", "why_tests_cant": "universal over device behaviour", "anchors": ["third_party/e2e/engine.cc: ScsiToNvme"]}
{"id": "C58", "title": "Engine frees every page", "statement": "After ScsiToNvme returns every page allocated during the call has been freed.", "quantifier": "all CDBs, buffers, devices", "why_tests_cant": "the leaking path needs a CDB allocation length above the buffer length", "anchors": ["third_party/e2e/engine.cc:41-49"]}
{"id": "C59", "title": "End-to-end block store", "statement": "Driving an ideal 4096-byte-block NVMe device through ScsiToNvme, any history of READ and WRITE commands behaves as reads and writes of an abstract array of blocks per LUN: every successful READ returns the blocks last written by successful WRITEs.", "quantifier": "all histories of READ/WRITE(6/10/12/16) commands over any LUNs, with data buffers of matching length", "why_tests_cant": "unbounded histories with arbitrary overlap", "anchors": ["third_party/e2e/engine.cc", "lib/translator/translation.cc", "lib/translator/read.cc", "lib/translator/write.cc"]}
{"id": "C60", "title": "Endian helpers", "statement": "htonll, htols, htoll, htolll (and their ntoh/ltoh aliases) are involutions which, on hosts of either endianness, make the in-memory bytes big-endian respectively little-endian.", "quantifier": "all values, both host endiannesses", "why_tests_cant": "the big-endian branch cannot run on the test machine", "anchors": ["lib/translator/common.cc: htonll, htols, htoll, htolll"]}
{"id": "C61", "title": "Span / ReadValue / WriteValue", "statement": "subspan never yields a range outside its parent; ReadValue succeeds exactly if enough bytes are present and then returns the leading bytes; WriteValue succeeds exactly if the value and the span are large enough, then changes exactly the leading bytes, and otherwise changes nothing.", "quantifier": "all spans, positions, lengths and contents", "why_tests_cant": "universal over sizes including size_t limits", "anchors": ["lib/translator/common.h: Span, ReadValue, WriteValue"]}
{"id": "C62", "title": "SetPages", "statement": "SetPages refuses to overwrite a live allocation without calling the allocator, otherwise requests both page counts, records what it got and fails exactly if a non-zero request returned 0.", "quantifier": "all allocation states, page counts and allocator behaviours", "why_tests_cant": "universal over allocator behaviours", "anchors": ["lib/translator/common.cc: SetPages"]}
{"id": "C63", "title": "Struct layouts", "statement": "Every packed wire structure the translator uses has the size asserted in the headers and decoding inverts encoding.", "quantifier": "all field values", "why_tests_cant": "universal over field values", "anchors": ["lib/scsi.h static_asserts", "third_party/spdk/nvme.h static_asserts"]}
{"id": "C64", "title": "Allocation length reported by Begin", "statement": "For every accepted command BeginResponse.alloc_len equals the allocation length of the CDB (INQUIRY, REPORT LUNS, MAINTENANCE IN, REQUEST SENSE, MODE SENSE(6), MODE SENSE(10)), blocks*4096 (READ), 8 (READ CAPACITY) and 0 otherwise.", "quantifier": "all accepted CDBs", "why_tests_cant": "universal over CDBs", "anchors": ["lib/translator/translation.cc: Begin", "lib/translator/translation.h: BeginResponse"]}
{"id": "C65", "title": "Data is modified only on request", "statement": "An NVMe command that modifies data on the medium (Write, Dataset Management) is handed out by Begin only for a SCSI WRITE or for an UNMAP with a valid parameter list.", "quantifier": "all CDBs, all object histories, all buffers, all allocator behaviours", "why_tests_cant": "it must hold after every history of earlier commands on the object", "anchors": ["lib/translator/translation.cc: Begin, GetNvmeWrappers", "lib/translator/unmap.cc: UnmapToNvme"]}
{"id": "C66", "title": "Block device characteristics page", "statement": "VPD B1h carries page code B1h, big-endian page length 003Ch, big-endian medium rotation rate 0001h (non-rotating) and nominal form factor 0.", "quantifier": "all identify contents, all buffers", "why_tests_cant": "the unit test compares against the same constants as the code; the wire bytes must hold for every call", "anchors": ["lib/translator/inquiry.cc: TranslateBlockDeviceCharacteristicsVpd", "lib/scsi.h: BlockDeviceCharacteristicsVpd, PageLength"]}
{"id": "C67", "title": "Engine submits exactly the translated commands", "statement": "If the announced length fits in the data buffer, ScsiToNvme hands to the driver exactly the commands GetNvmeWrappers() returns, once each and in order, each to the queue its is_admin flag names, with the address in bytes 24-31 of the command as buffer and the wrapper's length; the returned status is the one Complete computes from all completions, in the same order.", "quantifier": "all CDBs, buffers, LUNs, allocators and devices (arbitrary state, memory effects and completions)", "why_tests_cant": "universal over device behaviour and command lists", "anchors": ["third_party/e2e/engine.cc: ScsiToNvme"]}
{"id": "C68", "title": "Completing I/O commands touches no memory", "statement": "Completing a successful READ, WRITE, SYNCHRONIZE CACHE or VERIFY returns GOOD, changes no memory and makes no allocator call: the data transferred by the device is left as it is.", "quantifier": "all histories of the object, CDBs, buffers, memory contents, allocators", "why_tests_cant": "absence of effects on all of memory", "anchors": ["lib/translator/translation.cc: Complete"]}
{"id": "C69", "title": "Exact behaviour of UNMAP through Begin", "statement": "For a readable UNMAP parameter list and a well-behaved allocator: if the list is translatable and a page is granted, Begin accepts exactly when the command block's reserved bits also form a valid MODE SENSE(6) with DBD set, and then emits the Dataset Management command for exactly the requested ranges; otherwise, if it accepts at all, the first command handed out is whatever command the object held in its first slot from an earlier translation. In particular an UNMAP with clear reserved bits is never accepted.", "quantifier": "all UNMAP CDBs, parameter lists, LUNs, histories of the object and well-behaved allocators", "why_tests_cant": "universal over parameter lists and over what earlier commands left in the object", "anchors": ["lib/translator/translation.cc: Begin", "lib/translator/unmap.cc: Unmap", "lib/translator/mode_sense.cc: ModeSense6"]}
{"id": "C70", "title": "The driver executes each submitted command once and returns every request", "statement": "A command submitted to the NVMe driver is executed by the hardware exactly when its queue exists, a request can be obtained and its buffer can be mapped, and then exactly once; the request obtained from the block layer is given back after the execution and on every error path, and over a whole SCSI command the hardware executes no commands other than those the translation handed out, each at most once and in order.", "quantifier": "all submissions, all behaviours of the block layer (request allocation, mapping, execution), all SCSI commands through the engine", "why_tests_cant": "quantifies over all failure patterns of the block layer and over all commands", "anchors": ["third_party/e2e/nvme_driver.c: nvme_submit_user_cmd, submit_admin_command, submit_io_command"]}
{"id": "C71", "title": "GOOD is returned only if the hardware executed the commands", "statement": "If the engine returns status GOOD, every NVMe command of the translation has been executed by the hardware.", "quantifier": "all SCSI commands, all block layers including ones in which submission fails", "why_tests_cant": "needs every failure pattern of the layers below", "anchors": ["third_party/e2e/engine.cc: ScsiToNvme", "third_party/e2e/nvme_driver.c: submit_admin_command, submit_io_command"]}
{"id": "C72", "title": "The module's page allocation callbacks meet the library's contract", "statement": "On top of a kernel whose kzalloc returns NULL or a fresh zeroed block and whose kfree releases the block, the module's page allocation callbacks are a well-behaved allocator as the library assumes: a result of 0 leaves memory alone, any other result is a fresh zeroed range of the requested number of pages, releasing makes exactly that range inaccessible; a request for zero pages is answered with 0.", "quantifier": "all page counts, memory states and kernels", "why_tests_cant": "universal over kernel behaviours and all memory", "anchors": ["third_party/e2e/util.c: AllocPages, DeallocPages", "third_party/e2e/engine.cc: SetEngineCallbacks"]}
{"id": "C73", "title": "The kernel module transfers exactly the engine's data", "statement": "For each SCSI command with a (16-bit) non-zero transfer length the module obtains one zeroed buffer of that length (copying the initiator's data into it for data-out), calls the engine once with the command's CDB, LUN, sense buffer and that buffer, reports the engine's status, and for data-in copies exactly the bytes the engine announced into the scatter-gather list and leaves the rest of the list alone; the residual count is the part not transferred. If there is no memory for the buffer, the result is 23 and nothing else happens.", "quantifier": "all commands, scatter-gather contents and lengths, kernels, devices", "why_tests_cant": "universal over contents, lengths and devices", "anchors": ["third_party/e2e/scsi_mock_module.c: scsi_queuecommand"]}
{"id": "C74", "title": "The kernel module leaks no memory contents and no buffer", "statement": "The initiator never receives stale kernel memory for a command that fails without the device writing the buffer: the transferred bytes are zeros. The transfer buffer is released on every path, and of the memory accessible before the call only the sense buffer (and what the device itself writes) may change.", "quantifier": "all commands, memory contents, kernels, devices", "why_tests_cant": "absence of information flow and frame conditions over all of memory", "anchors": ["third_party/e2e/scsi_mock_module.c: scsi_queuecommand", "third_party/e2e/engine.cc: ScsiToNvme"]}
{"id": "C75", "title": "The kernel module over a correct device is a block store", "statement": "For any sequence of READ and WRITE commands over any LUNs handed to the kernel module, on top of a device that implements Read and Write correctly, each correct READ returns in the scatter-gather list the bytes most recently written, each correct WRITE stores its data, any other command is not answered with result 0, and nothing else changes on the disks.", "quantifier": "all sequences of commands of all lengths, LUNs, block addresses, data, kernels", "why_tests_cant": "a statement about all histories", "anchors": ["third_party/e2e/scsi_mock_module.c: scsi_queuecommand", "third_party/e2e/engine.cc: ScsiToNvme", "lib/translator/read.cc", "lib/translator/write.cc"]}
{"id": "C76", "title": "Vital product data returned, exactly", "statement": "For an accepted INQUIRY with EVPD=1 and every page code, the call succeeds and the data returned is exactly the page described in the specification (a function of the page code, the LUN, the Identify Controller / Identify Namespace data the device returned and, for page 80h, the 33 bytes of stack buffer used): the whole page if the buffer can hold it, the first four bytes for pages 00h and 80h if the buffer only holds those, and otherwise - or if the page is not supported - nothing at all. (The specification documents where this deviates from SPC-4/SBC-3.)", "quantifier": "all page codes, Identify data, allocation lengths, buffer lengths", "why_tests_cant": "all 2^32768 Identify contents and every length", "anchors": ["lib/translator/inquiry.cc: InquiryToScsi and its helpers"]}
{"id": "C77", "title": "The serial number page discloses memory exactly when an identifier is short", "statement": "The unit serial number page's contents depend on uninitialised stack memory exactly when one of the numbers printed into it has fewer than the printed width's digits; otherwise it is a function of the Identify data alone.", "quantifier": "all Identify Namespace data, all stack contents", "why_tests_cant": "information flow from uninitialised memory", "anchors": ["lib/translator/inquiry.cc: TranslateUnitSerialNumberVpd"]}
{"id": "C78", "title": "Begin is exactly the documented function", "statement": "For every command block, data buffer, LUN, allocator and earlier history of the object, Begin on an idle object does exactly what the specification function `plan` says: it asks for exactly that many pages, accepts or rejects accordingly, hands out exactly those 64-byte NVMe commands with those queues and buffer lengths, and announces exactly that allocation length (also for rejected commands).", "quantifier": "all command blocks of all lengths, data buffers, LUNs, allocator answers, previous object states", "why_tests_cant": "the space of command blocks, buffers and histories is unbounded", "anchors": ["lib/translator/translation.cc: Translation::Begin", "lib/translator/read.cc", "lib/translator/write.cc", "lib/translator/unmap.cc", "lib/translator/mode_sense.cc", "lib/translator/report_luns.cc", "lib/translator/verify.cc"]}
{"id": "C79", "title": "Complete is exactly the documented function", "statement": "Every call of Complete after Begin ends exactly as the specification function `outcome` says: an API failure when the number of completions is wrong; status 02h with ILLEGAL REQUEST / INVALID FIELD IN CDB sense data when Begin rejected the command; the table's status and sense data for the first unsuccessful completion; otherwise GOOD and exactly the bytes `reply` in the data-in buffer for every opcode (as a function of the command block, LUN, device pages, first completion and buffer length). All 8 sense bytes are given, including the uninitialised reserved bits. Nothing else in memory changes except pages given back.", "quantifier": "all command blocks, completions, device data, buffer lengths, histories, stack contents", "why_tests_cant": "the space of device data (two 4096-byte pages), lengths and completions cannot be enumerated", "anchors": ["lib/translator/translation.cc: Translation::Complete", "lib/translator/inquiry.cc: InquiryToScsi", "lib/translator/mode_sense.cc: ModeSense6ToScsi, ModeSense10ToScsi", "lib/translator/report_luns.cc", "lib/translator/read_capacity_10.cc", "lib/translator/request_sense.cc", "lib/translator/maintenance_in.cc", "lib/translator/common.cc: FillSenseBuffer"]}
{"id": "C80", "title": "The engine as a function", "statement": "For every SCSI command issued through the engine, the NVMe commands the device is given, their order, queues, buffers and lengths, the status and length returned, and the bytes placed in the data or sense buffer are one fixed function of the command block, LUN, buffers, allocator answers, the contents of uninitialised slots, and what the device answers; nothing else the caller can access is changed by the engine.", "quantifier": "every command block, LUN, buffer, well-behaved allocator, and every device that takes no memory away and leaves the command block alone", "why_tests_cant": "the function ranges over all 2^(8n) command blocks and over arbitrary device behaviour, including devices no simulator implements", "anchors": ["third_party/e2e/engine.cc:ScsiToNvme", "lib/translator/translation.cc:Translation::Begin", "lib/translator/translation.cc:Translation::Complete"]}
{"id": "C81", "title": "When a call of the engine returns", "statement": "A call of the engine always returns without undefined behaviour, as long as the command block, the data buffer and the sense buffer are accessible and the device takes no memory away.", "quantifier": "every command block, LUN, buffer sizes, allocator and device behaviour", "why_tests_cant": "the failing combinations depend on page code, DBD bit, buffer size and on what the device reports as block size, jointly", "anchors": ["third_party/e2e/engine.cc:ScsiToNvme", "lib/translator/mode_sense.cc:WritePageData", "lib/translator/mode_sense.cc:WriteBlockDescriptor", "lib/translator/translation.cc:Translation::Complete"]}
{"id": "C82", "title": "Information commands through the engine", "statement": "Over a controller that executes Identify and Get Features, and as long as no page request is refused during the call, every INQUIRY, READ CAPACITY(10), REPORT LUNS (select report 0-2) and MODE SENSE(6) (with at least one NVMe command) whose allocation length fits into the data buffer is answered with GOOD and its allocation length; the state of the device is unchanged; and of the memory accessible to the caller exactly the answer is changed, which is made of the Identify data the controller has for the namespace of the LUN (LUN + 1) and for the controller itself, and the Get Features value, as for C34-C50.", "quantifier": "every such command block, every LUN, buffer, identify data, feature value, allocator behaviour", "why_tests_cant": "the whole path from command block over allocated pages, device and back has to be right for all identify data and all command blocks", "anchors": ["third_party/e2e/engine.cc:ScsiToNvme", "lib/translator/inquiry.cc", "lib/translator/read_capacity_10.cc", "lib/translator/report_luns.cc", "lib/translator/mode_sense.cc"]}
{"id": "C83", "title": "Histories of arbitrary commands keep READ and WRITE coherent", "statement": "Drive the engine with any history of SCSI commands (any opcodes, any contents, correct or not) over a device that executes Read and Write on disks and changes the disks only for commands which modify data. READ and WRITE behave as those of an array of disks, one per LUN; no other command changes the disks (an UNMAP with a nonzero reserved byte apart); a READ of blocks returns what the last WRITE of them wrote whatever other commands were served in between; and with a well-behaved allocator and a controller that answers Identify and Get Features every such history without MODE SENSE is served to the end.", "quantifier": "all histories of commands of any length, all command blocks, LUNs, buffers and memory contents, all devices with the stated storage behaviour, all allocators", "why_tests_cant": "A test runs one fixed sequence of commands against one mock device; the claim is about every sequence, including malformed and unsupported commands between a WRITE and a READ.", "anchors": ["lib/translator/translation.cc: Translation::Begin, Translation::Complete", "third_party/e2e/engine.cc: ScsiToNvme"]}
{"id": "C84", "title": "Independent translation objects", "statement": "Any number of translation objects may be used side by side, with calls on them interleaved arbitrarily and the callbacks replaced between calls. Each object follows the call protocol (C01-C03) by itself, whatever is done with the others; with deallocation callbacks registered and allocators answering 0 to empty requests only outstanding page ranges are ever handed back, and once every object is idle exactly the ranges outstanding at the start are outstanding.", "quantifier": "every family of objects, every initial contents of their memory, every interleaving of Begin/Complete/AbortPipeline/GetNvmeWrappers/GetAllocLen calls, every callbacks at each call", "why_tests_cant": "the number of interleavings is unbounded; shared state between objects would show only in particular ones", "anchors": ["lib/translator/translation.cc:Begin", "lib/translator/translation.cc:Complete", "lib/translator/translation.cc:AbortPipeline", "lib/translator/common.cc:AllocPages", "lib/translator/common.cc:SetAllocPageCallbacks"]}
{"id": "C85", "title": "Loading and unloading the kernel module leaves nothing behind", "statement": "In every history of loading the kernel module, releasing and binding its device any number of times and unloading it, with every kernel function failing or succeeding arbitrarily, nothing is released that is not held, and after unloading (or a failed load) everything acquired has been released.", "quantifier": "every list of lives of the module, every answers of the kernel functions, every sequence of bind and unbind in each", "why_tests_cant": "the leaks appear only in particular combinations of failing kernel functions and accumulate over histories", "anchors": ["third_party/e2e/scsi_mock_module.c:scsi_mock_init", "third_party/e2e/scsi_mock_module.c:scsi_mock_exit", "third_party/e2e/scsi_mock_module.c:bus_driver_probe", "third_party/e2e/scsi_mock_module.c:bus_remove", "third_party/e2e/nvme_driver.c:nvme_driver_init"]}
{"id": "C86", "title": "A loaded module has its NVMe namespace", "statement": "If loading the kernel module succeeds, the NVMe namespace to which commands are submitted is available; loading fails with -EINVAL exactly if a step failed.", "quantifier": "every answers of the kernel functions called while loading", "why_tests_cant": "the result of the driver's initialisation is a side condition that no single successful load exercises", "anchors": ["third_party/e2e/scsi_mock_module.c:scsi_mock_init", "third_party/e2e/nvme_driver.c:nvme_driver_init"]}
{"id": "C87", "title": "A released device can be bound again", "statement": "While the module is loaded at most one SCSI host exists at a time, and a device released from the driver can be bound again whenever the kernel grants the host.", "quantifier": "every state reachable by loading, binding and unbinding, every answers of the kernel functions", "why_tests_cant": "needs arbitrary histories of binding and unbinding", "anchors": ["third_party/e2e/scsi_mock_module.c:bus_driver_probe", "third_party/e2e/scsi_mock_module.c:bus_remove"]}
{"id": "C88", "title": "One block length for the device", "statement": "The logical block length reported by READ CAPACITY is the block length used when READ commands are carried out: a READ of n blocks needs a buffer of n times the reported length and announces that many bytes.", "quantifier": "every Identify Namespace data, every READ CAPACITY and READ command", "why_tests_cant": "a mismatch only shows for namespaces formatted with particular block sizes, combined over two commands", "anchors": ["lib/translator/read.cc:Read10ToNvme", "lib/translator/read_capacity_10.cc:ReadCapacity10ToScsi", "lib/translator/translation.cc:Begin"]}
{"id": "C89", "title": "Data pointers describe the whole transfer", "statement": "The data pointers of the NVMe Read and Write commands built describe the whole data transfer: every page of the caller's buffer that is touched by the transfer is given to the controller.", "quantifier": "every accepted READ and WRITE command, every buffer address and length", "why_tests_cant": "depends on the alignment of the buffer and the number of blocks in every combination", "anchors": ["lib/translator/read.cc:LegacyRead", "lib/translator/write.cc:LegacyWrite"]}
{"id": "C90", "title": "MODE SENSE(10) translators", "statement": "Called directly, the MODE SENSE(10) translators accept exactly the supported pages, ask for one page exactly if block descriptors are wanted, build Identify Namespace and Get Features commands, and answer with exactly the mode parameter header(10), long or short block descriptor and mode pages, as many whole structures as fit in the buffer.", "quantifier": "every command block, namespace id, allocator, Identify data (block sizes below 2^32), Get Features result, buffer length", "why_tests_cant": "the dispatcher never completes this path, so no end-to-end test reaches it; all byte strings and lengths are involved", "anchors": ["lib/translator/mode_sense.cc:ModeSense10ToNvme", "lib/translator/mode_sense.cc:ModeSense10ToScsi", "lib/translator/mode_sense.cc:WriteMode10Header", "lib/translator/mode_sense.cc:WriteBlockDescriptor"]}
{"id": "C91", "title": "REPORT SUPPORTED OPERATION CODES helpers", "statement": "The validation accepts exactly complete command blocks with reporting option 001b asking for WRITE SAME(16), returning allocation length 4; the answer is the four bytes saying 'not supported', written exactly if they fit.", "quantifier": "every command block, incoming allocation length and buffer", "why_tests_cant": "all byte strings are quantified over", "anchors": ["lib/translator/maintenance_in.cc:ValidateReportSupportedOpCodes", "lib/translator/maintenance_in.cc:WriteReportSupportedOpCodesResult"]}
{"id": "C92", "title": "READ translators with any block size", "statement": "The READ(6/10/12/16) translators, called with any logical block size up to 65536 bytes, accept exactly the complete, translatable commands with 1 to 65535 blocks that fit in the buffer, and build the NVMe Read with the fields of the command block; the announced length is blocks times block size. With larger block sizes the 32-bit length may wrap.", "quantifier": "every command block, block size, buffer length and address, namespace id, protection field", "why_tests_cant": "the product of block count and block size ranges over all of 32 bits", "anchors": ["lib/translator/read.cc:Read6ToNvme", "lib/translator/read.cc:Read10ToNvme", "lib/translator/read.cc:Read12ToNvme", "lib/translator/read.cc:Read16ToNvme"]}
{"id": "C93", "title": "Histories of arbitrary commands through the kernel module", "statement": "For any history of commands passed to the kernel module over a device that stores data, READ and WRITE behave as those of an array of disks (one per LUN), a READ returns what the last WRITE of its blocks wrote whatever other commands come in between, no other command changes the disks or the length of a scatter-gather list, and - the MODE SENSE commands of C81 aside - every history is handled to the end without undefined behaviour.", "quantifier": "every history of commands of any kind, every kernel allocator behaviour, every device that stores data, every disk content, scatter-gather lists of READ and WRITE below 65536 bytes", "why_tests_cant": "the guarantee ranges over unbounded histories of arbitrary command blocks and arbitrary allocation failures", "anchors": ["third_party/e2e/scsi_mock_module.c:scsi_queuecommand", "third_party/e2e/engine.cc:ScsiToNvme", "third_party/e2e/util.c:AllocPages"]}
{"id": "C94", "title": "Information commands through the kernel module", "statement": "INQUIRY, READ CAPACITY(10), REPORT LUNS and MODE SENSE(6) passed to the kernel module over a controller that executes Identify and Get Features end with result 0; the scatter-gather list then begins with exactly the answer made of the controller's data for the LUN's namespace, followed by zeros up to the allocation length (no stale kernel memory), is unchanged behind it, and the residual count tells how much of the buffer was not used.", "quantifier": "every such command block, LUN, controller data, scatter-gather list, kernel allocator that grants the pages", "why_tests_cant": "all byte strings of command blocks and controller data and all list lengths are involved", "anchors": ["third_party/e2e/scsi_mock_module.c:scsi_queuecommand", "third_party/e2e/engine.cc:ScsiToNvme", "lib/translator/inquiry.cc:InquiryToScsi", "lib/translator/report_luns.cc:ReportLunsToScsi"]}
{"id": "C95", "title": "The whole stack stores data and gives its requests back", "statement": "Commands passed to the kernel module go through the engine, the translation library and the kernel driver to the block layer. Over a block layer in which nothing fails and which keeps the data of the disks, any history of commands behaves as one on an array of disks: a READ returns what the last WRITE of its blocks wrote, other commands change nothing, every request obtained from the block layer is given back, and - the MODE SENSE commands of C81 aside - every history is handled to the end. A block layer that transfers data through the buffer handed over (as Linux does, ignoring the data pointers in the command) is covered.", "quantifier": "every history of commands of any kind, every kernel allocator behaviour, every block layer that keeps data, every disk content, scatter-gather lists of READ and WRITE below 65536 bytes", "why_tests_cant": "unbounded histories through four layers; unit tests exercise each translator alone against literals", "anchors": ["third_party/e2e/nvme_driver.c:nvme_submit_user_cmd", "third_party/e2e/scsi_mock_module.c:scsi_queuecommand", "third_party/e2e/engine.cc:ScsiToNvme"]}
{"id": "C96", "title": "Concurrent calls are linearizable, safe and make progress", "statement": "Any number of calls of the engine may be under way at once, each with memory of its own, interleaved in any way between starting, each submission of an NVMe command and finishing. At every moment there is an order of the calls - containing every call that returned, no call that has not begun, and agreeing with the order of calls that did not overlap - in which they could have been made one after the other with the same answers, the same data in the READ buffers and the same disks. No interleaving (the MODE SENSE commands of C81 aside) has undefined behaviour, and a call that gets five turns has returned whatever the others do.", "quantifier": "every number and kind of calls, every interleaving and every moment in it, every storage device with a controller, every page allocator that hands out fresh pages, every disk content", "why_tests_cant": "interleavings and histories are unbounded; tests run one call at a time", "anchors": ["third_party/e2e/engine.cc:ScsiToNvme", "lib/translator/translation.cc:Begin", "lib/translator/translation.cc:Complete"]}
{"id": "C97", "title": "WRITEs are atomic and durable, under concurrency and at every crash point", "statement": "Whatever calls run concurrently and wherever the execution stops: a correct WRITE whose blocks no other call writes has replaced all of its blocks or none of them; once it has returned it has returned GOOD and the blocks hold its data; blocks no call writes keep their contents; a READ that begins after the WRITE returned returns the data of the WRITE.", "quantifier": "every interleaving of any number of calls, every moment at which the execution may stop, every storage device", "why_tests_cant": "crash points and schedules are unbounded", "anchors": ["third_party/e2e/engine.cc:ScsiToNvme", "lib/translator/write.cc:Write10ToNvme", "lib/translator/read.cc:Read10ToNvme"]}
{"id": "C98", "title": "Information commands are isolated from concurrent calls", "statement": "Among any number of concurrent calls, interleaved in any way, every INQUIRY, READ CAPACITY(10), REPORT LUNS and MODE SENSE(6) that is served when issued alone, and that has returned, was answered exactly as alone: GOOD, the announced length, and in its data buffer the data of the controller for its own LUN; no byte of another call's pages or buffers gets into it.", "quantifier": "every number and kind of concurrent calls, every interleaving and every moment in it, every storage device whose controller executes Identify and Get Features, every page allocator with fresh pages which refused none", "why_tests_cant": "interleavings are unbounded; tests run one call at a time", "anchors": ["third_party/e2e/engine.cc:ScsiToNvme", "lib/translator/inquiry.cc:InquiryToScsi", "lib/translator/report_luns.cc:ReportLunsToScsi", "lib/translator/mode_sense.cc:ModeSense6ToScsi", "lib/translator/read_capacity_10.cc:ReadCapacity10ToScsi"]}
{"id": "C99", "title": "A failing device corrupts nothing", "statement": "The device and the layers below the engine may fail in any way and at any time - drop commands, answer anything, transfer part of the data - as long as the device writes only where a command lets it. Whatever calls are under way, at every moment every byte of every disk is the one it held at first or the one which a complete and correct WRITE among the calls that have begun carries for exactly this position; accessible memory that belongs to no call, and that of calls not yet begun, is untouched; and no interleaving (the MODE SENSE commands of C81 aside) has undefined behaviour. The kernel driver over any block layer, however unreliable, is such a device.", "quantifier": "every number and kind of calls, every interleaving and every moment in it, every pattern of failures of device, driver and block layer, every allocator with fresh pages, all disk contents", "why_tests_cant": "failure patterns and interleavings are unbounded; fault injection samples a few", "anchors": ["third_party/e2e/engine.cc:ScsiToNvme", "third_party/e2e/nvme_driver.c:nvme_submit_user_cmd", "lib/translator/write.cc:Write10ToNvme"]}
{"id": "C100", "title": "Debug messages are complete and safe to print", "statement": "Every debug message the library logs, whatever the values in it, is made by matching conversions and arguments, reaches the debug callback complete (not cut off at the size of its buffer), and is printed unchanged by the kernel module, which passes it to printk as a format; without a callback nothing happens. Numbers are shown with their value, every operation code is called what the standards call its command (INVALID_OPCODE if the list of scsi.h lacks it), different codes have different names, and no command is accepted whose operation code is called invalid in the log.", "quantifier": "every call of DebugLog and all values of its arguments, every operation code", "why_tests_cant": "The messages contain numbers and names that depend on the command and on the device; a test sees a few of them, and a message that contains a % or a mismatched argument is only harmful in the kernel or on another platform.", "anchors": ["lib/translator/common.cc: DebugLog, SetDebugCallback, ScsiOpcodeToString", "third_party/e2e/util.c: Print", "lib/translator/translation.cc: Begin, Complete", "lib/translator/report_luns.cc"]}
{"id": "C101", "title": "Concurrent commands through the kernel module are linearizable, safe and make progress", "statement": "The SCSI layer may hand any number of commands to the kernel module at once, each with its own command block and sense buffer. However the calls interleave between allocating the transfer buffer, starting the engine, each submission of an NVMe command, finishing the engine and copying out: at every moment there is an order of the commands - containing every command that is done, no command for which the engine has not begun, and agreeing with the order of commands that did not overlap - in which they could have been executed one after the other with the same results, residual counts, scatter-gather lists and disks. A command fails for lack of memory only if the kernel had none when its turn came. No interleaving (the MODE SENSE commands of C81 aside) has undefined behaviour; of the memory accessible before, only command blocks and sense buffers of the commands may change; a command that gets seven turns is done.", "quantifier": "all sets of commands, schedules, moments, devices that store data, kernels", "why_tests_cant": "A test runs one command at a time, or a few interleavings; freeing or copying a buffer of another command shows only in some of them.", "anchors": ["third_party/e2e/scsi_mock_module.c: scsi_queuecommand", "third_party/e2e/engine.cc: ScsiToNvme"]}
{"id": "C102", "title": "WRITEs through the kernel module are atomic and durable, under concurrency and at every crash point", "statement": "Whatever commands the kernel module handles concurrently and wherever the execution stops: a correct WRITE whose blocks no other command writes has replaced all of its blocks by the bytes of its scatter-gather list or none of them; once it is done with memory it has result 0 and the blocks hold those bytes, and without memory it has result 23 and changed nothing; blocks no command writes keep their contents; a READ with which the engine begins after the WRITE was done puts the WRITE's bytes at the beginning of its own list, leaves the rest of the list, and reports the right residual count.", "quantifier": "all sets of commands, schedules, crash points, devices that store data, kernels", "why_tests_cant": "Interleavings and crash points cannot be enumerated by tests.", "anchors": ["third_party/e2e/scsi_mock_module.c: scsi_queuecommand", "third_party/e2e/engine.cc: ScsiToNvme"]}
{"id": "C103", "title": "Information commands are answered alone and among others, through the kernel module", "statement": "Among any commands handed to the kernel module concurrently and interleaved in any way, over a controller which executes Identify and Get Features: every INQUIRY, READ CAPACITY(10), REPORT LUNS and MODE SENSE(6) that the library translates and that fits in its buffer has, once it is done, the outcome it has when it is the only command: result 0, the list begins with the specified data filled up with zeros to the allocation length and is unchanged behind that, and the residual count is exact - provided the kernel had memory for its buffer and for the pages of all calls. No interleaving of commands whose completion is defined for the Identify data of their namespaces has undefined behaviour.", "quantifier": "all numbers of commands, command blocks, lists, schedules and moments, all good kernels, devices, Identify data and features", "why_tests_cant": "a test runs a handful of interleavings over one controller", "anchors": ["third_party/e2e/scsi_mock_module.c:scsi_queuecommand", "third_party/e2e/engine.cc:ScsiToNvme", "lib/translator/inquiry.cc", "lib/translator/read_capacity_10.cc", "lib/translator/report_luns.cc", "lib/translator/mode_sense.cc"]}
{"id": "C104", "title": "The kernel module gives back all memory", "statement": "Commands are handed to the kernel module concurrently and interleaved in any way, and none of them asks for more data than its buffer holds. Then at any moment the memory which was accessible at the beginning is still accessible, and if anything else is accessible some command is being executed: once all commands handed over are done, every data buffer and every page has been given back, whatever the device answered, whichever allocations failed and whether the commands were accepted or rejected. (A command which asks for more than its buffer holds may lose its pages for ever.)", "quantifier": "all numbers of commands, command blocks, lists, schedules and moments, all good kernels and devices", "why_tests_cant": "a leak shows only for some combination of command, device answer, failed allocation and interleaving", "anchors": ["third_party/e2e/scsi_mock_module.c:scsi_queuecommand", "third_party/e2e/util.c", "third_party/e2e/engine.cc:ScsiToNvme", "lib/translator/translation.cc:Translation::Begin,Translation::Complete,Translation::FlushMemory"]}
{"id": "C105", "title": "The whole stack, used concurrently", "statement": "Commands are handed concurrently to the whole stack - kernel module, engine, library and driver - and interleaved in any way, over a block layer in which nothing fails and which keeps the data of the disks. Then the commands have the outcomes and the effect on the disks they have when executed one after the other in some order which respects real time; a correct READ returns what a WRITE done before it wrote; at any moment (for instance when the machine stops) a correct WRITE not overwritten by others is on the disk entirely or not at all, entirely if it was reported done; information commands are answered as if alone; all memory is given back, and so is every request obtained from the block layer (this even if the block layer fails arbitrarily); there is no undefined behaviour for steady commands, and every command is done after at most seven of its turns.", "quantifier": "all numbers of commands, command blocks, lists, schedules and moments, all good kernels, block layers, devices and disk contents", "why_tests_cant": "interleavings of calls through four components cannot be enumerated by tests", "anchors": ["third_party/e2e/scsi_mock_module.c:scsi_queuecommand", "third_party/e2e/engine.cc:ScsiToNvme", "third_party/e2e/nvme_driver.c:nvme_submit_user_cmd", "third_party/e2e/util.c"]}
{"id": "C106", "title": "The kernel module over a device which fails", "statement": "Commands are handed concurrently to the kernel module, interleaved in any way, over a device (or a driver and block layer) which may fail in any way at any time - lose commands, transfer parts of the data, answer anything. At every moment every byte of every disk is the original one or the one which a complete and correct WRITE with whose execution the engine has begun puts there, at the place the WRITE addresses; memory which was accessible stays accessible, and what belongs to no command is untouched; every command which is done has result GOOD, CHECK CONDITION, TASK ABORTED or 23, a list of unchanged length, and an unchanged list if the direction is not data-in; if no command asks for more data than its buffer holds then all memory is given back; and there is no undefined behaviour for steady commands.", "quantifier": "all numbers of commands, command blocks, lists, schedules and moments, all good kernels, and all devices and block layers, whatever the pattern of their failures", "why_tests_cant": "failures at every point of every interleaving cannot be enumerated by tests", "anchors": ["third_party/e2e/scsi_mock_module.c:scsi_queuecommand", "third_party/e2e/engine.cc:ScsiToNvme", "third_party/e2e/nvme_driver.c:nvme_submit_user_cmd"]}
{"id": "C107", "title": "A command while no NVMe device is open", "statement": "Once the kernel module is loaded, every (steady) command handed to it is answered, whatever the kernel answered to the calls made while loading - in particular if the NVMe block device could not be opened or is not one of an NVMe namespace.", "quantifier": "all outcomes of loading, all good kernels, storage devices, commands, LUNs, lists and memories", "why_tests_cant": "a unit test sees one device which could be opened; a failed open followed by a command needs a kernel, and crashes it", "anchors": ["third_party/e2e/nvme_driver.c:nvme_driver_init", "third_party/e2e/nvme_driver.c:submit_io_command", "third_party/e2e/nvme_driver.c:submit_admin_command", "third_party/e2e/scsi_mock_module.c:scsi_mock_init"]}
{"id": "C108", "title": "GOOD can be trusted although the device fails", "statement": "Over an NVMe device which may fail any command in any way but reports success for a Read or Write only if it executed it, a READ or WRITE answered with GOOD was executed completely and correctly: there is an order of all calls, respecting their order in time, in which each GOOD READ returned the blocks as they were, each GOOD WRITE replaced its blocks, and a WRITE answered otherwise replaced at most some of its own bytes. In particular a WRITE repeated until it returns GOOD is stored, and a later READ which returns GOOD returns its data.", "quantifier": "all honest failing devices, all sets of calls with separate memory, all interleavings, all pairs (triples) of moments, all reliable block layers for the driver", "why_tests_cant": "needs all interleavings and all patterns of failures; a test fails one command at one place", "anchors": ["third_party/e2e/engine.cc:ScsiToNvme", "lib/translator/translation.cc:Begin", "lib/translator/translation.cc:Complete", "lib/translator/read.cc:Read", "lib/translator/write.cc:Write", "lib/translator/status.cc:StatusToScsi", "third_party/e2e/nvme_driver.c:submit_io_command"]}
{"id": "C109", "title": "Result 0 of the kernel module can be trusted although the device fails", "statement": "Commands handed to the kernel module concurrently, over an NVMe device which may fail any command in any way but reports success for a Read or Write only if it executed it: a READ or WRITE which ends with result 0 was executed completely and correctly (for a READ: the scatter-gather list begins with the blocks and is unchanged behind, the residual count is right), in one order of all commands which respects their order in time; a WRITE with another result replaced at most some of its own bytes. In particular a WRITE repeated until its result is 0 is stored, and a later READ with result 0 returns its data.", "quantifier": "all good kernels, honest failing devices, commands with disjoint memory, lists, LUNs, all interleavings, all triples of moments; through the driver: all reliable block layers", "why_tests_cant": "needs all interleavings and all patterns of failures of device and allocator; a test fails one command at one place", "anchors": ["third_party/e2e/scsi_mock_module.c:scsi_queuecommand", "third_party/e2e/engine.cc:ScsiToNvme", "third_party/e2e/nvme_driver.c:submit_io_command", "lib/translator/translation.cc:Complete"]}
{"id": "C110", "title": "Device errors reach the caller", "statement": "If the engine returns GOOD, the device reported success for every request that was executed for the command. (False of the code: the driver prints the status it finds in the kernel's request structure and does not hand it on. It holds if the block layer also writes the completion where the request's special pointer points; if it does not, every command that the translator accepts and whose data fits is answered with GOOD whatever the device says.)", "quantifier": "every command block, LUN and buffer, every block layer and every answer of the device", "why_tests_cant": "all answers of the device and all commands are involved; the unit tests have no driver", "anchors": ["third_party/e2e/nvme_driver.c:nvme_submit_user_cmd", "third_party/e2e/engine.cc:ScsiToNvme"]}
{"id": "C111", "title": "Requests have the direction and the buffer of their command", "statement": "Every request the driver executes for a command other than UNMAP is an output request exactly if its NVMe command transfers data from host to controller, carries no bidirectional command, and maps exactly the buffer the command points to, with the length handed over, or none if there is no buffer. For a READ it is one input request of the blocks' length, for a WRITE one output request of the whole data buffer.", "quantifier": "every command block other than UNMAP, every buffer, LUN, block layer and answer of the device", "why_tests_cant": "all command blocks and buffers are involved; no test runs the driver", "anchors": ["third_party/e2e/nvme_driver.c:nvme_alloc_request", "third_party/e2e/nvme_driver.c:nvme_submit_user_cmd", "third_party/e2e/engine.cc:ScsiToNvme"]}
{"id": "C112", "title": "Requests get sixty seconds", "statement": "The device is given 60 seconds for every request, whatever the kernel's tick. (False of the code: it is given 60 jiffies.)", "quantifier": "every command, every block layer, every number of jiffies per second", "why_tests_cant": "the value depends on the kernel configuration and every path of the driver", "anchors": ["third_party/e2e/engine.cc:kTimeout", "third_party/e2e/nvme_driver.c:nvme_submit_user_cmd"]}
{"id": "C113", "title": "The command block is only needed by Begin", "statement": "Once Begin has returned, the command block may be used for something else: Complete returns the same response, leaves the object in the same state, makes the same callback calls and writes the same bytes. (False of the code: Complete decodes the command block again. True of what it returns; true altogether for commands not answered with GOOD; for reads, writes and commands without data if the operation code is left in place.)", "quantifier": "every command, every earlier history of the object, every change of the bytes of the command block between the two calls", "why_tests_cant": "the outcome depends on every later content of the memory, and undefined behaviour need not show", "anchors": ["lib/translator/translation.cc: Begin, Complete (scsi_cmd_)", "lib/translator/translation.h: scsi_cmd_"]}
{"id": "C114", "title": "Bounded use of memory", "statement": "A call asks the page allocator at most twice for one page of 4096 bytes, each time together with a request for zero pages of metadata, and for nothing else; Complete and AbortPipeline ask for nothing. At no time does an object hold more than two pages, nor do N objects hold more than 2 N.", "quantifier": "every history of calls on any number of objects in any interleaving, every allocator", "why_tests_cant": "every history and every failure pattern of the allocator", "anchors": ["lib/translator/translation.cc: Begin, FlushMemory", "lib/translator/common.cc: Allocation::SetPages"]}
{"id": "C115", "title": "What Begin says about a command", "statement": "The texts given to the debug callback during a call of Begin are an explicit function of the command block, the length (for UNMAP: the contents) of the data buffer, whether the page slot is free and the answers of the allocator: first the name and the code of the operation, then at most the stated complaints, in order. Every message is one of the calls in the sources with arguments of the types found there. A rejected command is always complained about. (The converse, nothing but the opening remark for an accepted command, is false of the code: UNMAP, MODE SENSE(10) and MAINTENANCE IN fall through into another command, whose result is the one used; it is proved for all other commands. The formatting has undefined behaviour exactly for a bad SELECT REPORT value.)", "quantifier": "every command block, buffer, logical unit, allocator, earlier history of the object", "why_tests_cant": "every input and allocator answer; most messages are never looked at by the tests", "anchors": ["lib/translator/common.cc: DebugLog, Allocation::SetPages", "lib/translator/translation.cc: Begin", "lib/translator/read.cc, write.cc, unmap.cc, inquiry.cc, mode_sense.cc, report_luns.cc, maintenance_in.cc, read_capacity_10.cc, verify.cc, request_sense.cc"]}
{"id": "C116", "title": "What Complete says about a command", "statement": "The texts given to the debug callback during a call of Complete are an explicit function of the result of Begin, the completions, the command block, the lengths of the data-in and sense buffers and the NVMe pages the reply is made from: one complaint about a wrong number of completions (whose formatting is undefined, size_t for %u) and nothing else; for a rejected command only whether the sense data did not fit; for a failed command the text for the first bad completion without a SCSI counterpart and whether the sense data did not fit; for a successful command the complaints of the translation of the reply, followed by 'Failed to translate back to SCSI' exactly if it was not built. Every message is one of the calls in the sources with arguments of the types found there.", "quantifier": "every run: command block, buffers, allocator, history, completions, page contents", "why_tests_cant": "every input and device answer; most messages are never looked at by the tests", "anchors": ["lib/translator/translation.cc: Translation::Complete, FillSenseBuffer", "lib/translator/status.cc", "lib/translator/inquiry.cc, mode_sense.cc, report_luns.cc, read_capacity_10.cc, request_sense.cc: ...ToScsi"]}
{"id": "C117", "title": "GOOD means that the reply was built", "statement": "A command for which GOOD is reported is one whose reply was built: Complete does not say 'Failed to translate back to SCSI' for it. (False of the code: Complete logs the failure and reports GOOD. Proved: with a data-in buffer of at least 64 bytes the reply of a successful command is built, unless the INQUIRY page is unknown, the namespace has no identifier, its protection types are an unknown combination, or the block size is out of range; READ, WRITE, SYNCHRONIZE CACHE, TEST UNIT READY, VERIFY, UNMAP and MAINTENANCE IN say nothing at all.)", "quantifier": "every run whose allocator is good and whose buffers are accessible", "why_tests_cant": "every command, buffer length and page contents", "anchors": ["lib/translator/translation.cc: Translation::Complete"]}
{"id": "C118", "title": "Structures for commands that are not translated", "statement": "The structures of scsi.h for commands which the library declares but does not translate or decode (PERSISTENT RESERVE IN/OUT, VERIFY(12/16), SYNCHRONIZE CACHE(10/16), TEST UNIT READY, REPORT SUPPORTED TASK MANAGEMENT FUNCTIONS, REPORT TIMESTAMP, command descriptors and timeouts) put every field where SPC-4 and SBC-3 say, for all contents, and have their size. (False of the code: the structure for REPORT TIMESTAMP lacks the byte with the service action, so that the allocation length is taken from the wrong bytes; those for command descriptors lack the operation code. Proved for all others.)", "quantifier": "all contents of the command blocks and data", "why_tests_cant": "every value of every field; the tests do not use these structures", "anchors": ["lib/scsi.h: TestUnitReadyCommand, PersistentReserve*, ProParamList, Verify12Command, Verify16Command, SynchronizeCache10Command, SynchronizeCache16Command, CommandTimeoutsDescriptor, CommandDescriptor*, AllCommandsParamData, ReportTmf*, ReportTimestamp*"]}
{"id": "C119", "title": "Bytes after the command do not matter", "statement": "A command block may be longer than the command in it: how many bytes follow the command (whose length follows from its operation code), and which, changes neither what Begin does (response, NVMe commands, callback calls, memory) nor what Complete does. (False of the code for Begin with MODE SENSE(10), which is treated as REPORT LUNS if two more bytes follow; true for every other command and for Complete.)", "quantifier": "all command blocks of any lengths holding the same command, all states of the object, buffers, LUNs, allocators, completions", "why_tests_cant": "it compares any two lengths and any padding for every command and every object state", "anchors": ["lib/translator/translation.cc:35-288", "lib/translator/common.h:133-139"]}
{"id": "C120", "title": "An aborted command stays aborted", "statement": "Once the module's abort handler has reported success for a command, no NVMe command of it reaches the device any more. (False of the code: the handler reports success and does nothing; true if everything had been submitted before.)", "quantifier": "all commands, kernels, devices, and every point between the steps of the command at which the abort is asked for, and every continuation", "why_tests_cant": "it quantifies over the point of a running command at which the abort comes, and over all continuations", "anchors": ["third_party/e2e/scsi_mock_module.c:77", "third_party/e2e/scsi_mock_module.c:43-75"]}
{"id": "C121", "title": "SYNCHRONIZE CACHE and FUA make data durable", "statement": "Over a device with a volatile write cache, which may fail any command but does not report success for a Read, Write or Flush it did not execute: data of a WRITE answered with GOOD survive a power failure at any later moment, if after the WRITE had returned a SYNCHRONIZE CACHE(10) for the same LUN was begun and answered with GOOD, or if the WRITE had the FUA bit set. This holds whatever other calls are under way and however they are interleaved, as long as the calls which write any of the blocks had returned before the WRITE began. Without either, the data may be lost although the WRITE was answered with GOOD.", "quantifier": "every number and kind of calls, every interleaving, every moment of the power failure, every pattern of device failures, every LUN, block range and data, every allocator with fresh pages", "why_tests_cant": "the moment of the power failure, the interleavings and the failures are unbounded; a test pulls the plug at a few moments", "anchors": ["lib/translator/synchronize_cache.cc:SynchronizeCache10ToNvme", "lib/translator/write.cc:Write10ToNvme", "lib/translator/write.cc:Write16ToNvme", "lib/translator/translation.cc:Begin", "third_party/e2e/engine.cc:ScsiToNvme"]}
{"id": "C122", "title": "SYNCHRONIZE CACHE and FUA make data durable through the kernel module", "statement": "What C121 says of calls of the engine holds of commands handed to scsi_queuecommand of the kernel module: over a device with a volatile write cache which may fail any command but does not lie, the data of a WRITE with result 0 survive a power failure at any later moment, if after the WRITE was done a SYNCHRONIZE CACHE(10) for the same LUN was handed over and ended with result 0, or if the WRITE had the FUA bit set; whatever other commands are under way and however their calls are interleaved, and whichever allocations the kernel refuses.", "quantifier": "every number and kind of commands, every interleaving of their calls, every moment of the power failure, every pattern of device failures and of refused allocations, every LUN, block range and data", "why_tests_cant": "the moment of the power failure, the interleavings and the failures are unbounded; a test pulls the plug at a few moments", "anchors": ["third_party/e2e/scsi_mock_module.c:scsi_queuecommand", "third_party/e2e/engine.cc:ScsiToNvme", "lib/translator/synchronize_cache.cc:SynchronizeCache10ToNvme", "lib/translator/write.cc:Write10ToNvme"]}
{"id": "C123", "title": "Durable data survive any number of power failures", "statement": "Data which are durable by C121 or C122 (WRITE with result GOOD, and then a SYNCHRONIZE CACHE(10) for the LUN with result GOOD, or the FUA bit set) are read back after power failures: the power may fail at any moment, in the midst of other calls, and any number of times more, with calls in between which are interleaved and cut off anywhere; as long as no call since the first failure writes any of the blocks, a READ of the blocks which is answered with GOOD delivers the data of the WRITE. At a power failure the device may find of each byte what was stored or what was in its cache. For calls of the engine and for commands handed to the kernel module.", "quantifier": "every number of power failures, every moment of each, every history of calls between them, every interleaving, every pattern of device failures, every LUN, block range and data", "why_tests_cant": "crash points and the histories between them are unbounded; a test pulls the plug at a few moments", "anchors": ["third_party/e2e/engine.cc:ScsiToNvme", "third_party/e2e/scsi_mock_module.c:scsi_queuecommand", "lib/translator/synchronize_cache.cc:SynchronizeCache10ToNvme", "lib/translator/write.cc:Write10ToNvme", "lib/translator/read.cc:Read10ToNvme"]}
{"id": "C124", "title": "What a power failure leaves is not older than the last SYNCHRONIZE CACHE, also under concurrent writes", "statement": "If a SYNCHRONIZE CACHE(10) is answered with GOOD and the power fails at that moment or, for FUA, a WRITE with the FUA bit is answered with GOOD, every byte of the LUN (of the blocks written) which is left is one which commands saw there at some moment after the call began; so if a WRITE was answered with GOOD before the SYNCHRONIZE CACHE began, or has the FUA bit set and was answered with GOOD before the failure, each byte of its blocks is a byte of its data, or of another WRITE which had not returned when it began. No assumption is made on the other calls: they may write the same blocks at the same time and may fail. For calls of the engine and for commands handed to the kernel module.", "quantifier": "every interleaving of any number of calls, including ones that race for the same blocks, every moment of the power failure, every device with a volatile write cache which evicts in any order and fails any command", "why_tests_cant": "races and crash points are unbounded; a test pulls the plug in a few of them", "anchors": ["third_party/e2e/engine.cc:ScsiToNvme", "third_party/e2e/scsi_mock_module.c:scsi_queuecommand", "lib/translator/synchronize_cache.cc:SynchronizeCache10ToNvme", "lib/translator/write.cc:Write10ToNvme"]}
{"id": "C125", "title": "Data read with FUA are durable", "statement": "On a device with a volatile write cache which commits to stable storage what it reads with Force Unit Access, if a READ with the FUA bit is answered with GOOD, and every call that writes any of its blocks had returned before it began, then the data the READ delivered are on the medium: whatever power failures follow, a READ of the blocks answered with GOOD delivers them again, until a call after the failure writes them. No assumption is made on whether the calls that wrote the blocks succeeded. For calls of the engine and for commands handed to the kernel module.", "quantifier": "every interleaving of any number of calls, every moment and number of power failures, every device with a volatile write cache which evicts in any order and fails any command", "why_tests_cant": "a test cannot pull the plug at every moment of every schedule, and a mock which ignores FUA hides a translation that drops the bit", "anchors": ["lib/translator/read.cc:Read10ToNvme", "third_party/e2e/engine.cc:ScsiToNvme", "third_party/e2e/scsi_mock_module.c:scsi_queuecommand"]}
{"id": "C126", "title": "Write-ahead logging is safe", "statement": "A caller writes a record to a log with WRITE, then issues SYNCHRONIZE CACHE(10), and only then a WRITE over its data, waiting each time for GOOD before the next. Other calls, which write neither, run at the same time. Whenever the power fails (also in the midst of any call), and however often, either a READ of the data answered with GOOD delivers what they were before, or a READ of the log answered with GOOD delivers the complete record. For calls of the engine and for commands handed to the kernel module. The SYNCHRONIZE CACHE is needed: there are a device with a write cache and a run in which the record and then the data are written, both answered with GOOD, and a power failure leaves the data overwritten and the record lost.", "quantifier": "every interleaving of the three calls with any number of others, every moment and number of power failures, every device with a volatile write cache which evicts in any order and fails any command", "why_tests_cant": "the guarantee is about every crash point of every schedule and about a device that reorders what it stores; a test tries a few", "anchors": ["third_party/e2e/engine.cc:ScsiToNvme", "third_party/e2e/scsi_mock_module.c:scsi_queuecommand", "lib/translator/synchronize_cache.cc:SynchronizeCache10ToNvme", "lib/translator/write.cc:Write10ToNvme"]}
