{"id": "C01", "title": "Write then read returns the written value truncated to the memory width", "statement": "For a location that is decoded to a chip, is not read-only and has no attached operators, writing v through the address space and then reading it back returns v modulo 2^width (and the value returned by the write itself is that same value); for 1-bit spaces it returns 1 iff v is non-zero.", "quantifier": "every width 1..32, every chip storage size (1, 2 or 4 byte elements at least as wide as the cell), every chip contents, every address and every 32-bit value", "why_tests_cant": "2^32 values x 32 widths x all prior contents; tests sample a few bytes.", "anchors": ["src/core/sim.src/mem.cc:cl_memory_cell::write", "src/core/sim.src/mem.cc:cl_cell8::d", "src/core/sim.src/mem.cc:cl_cell16::d", "src/core/sim.src/mem.cc:cl_cell32::d", "src/core/sim.src/mem.cc:cl_bit_cell8::d", "src/core/sim.src/mem.cc:cl_address_space::write"]}
{"id": "C02", "title": "Writes do not disturb other locations", "statement": "A write through an address space changes the value read at no address (of any address space) that is decoded to a different chip element; in a bit space, writing one bit changes no other bit of the same element.", "quantifier": "all pairs of addresses, all address spaces, all chips, all values, all mappings", "why_tests_cant": "It is a frame property over every pair of locations and mapping.", "anchors": ["src/core/sim.src/mem.cc:cl_memory_cell::write", "src/core/sim.src/mem.cc:cl_memory_chip::get_slot", "src/core/sim.src/mem.cc:cl_bit_cell8::d"]}
{"id": "C03", "title": "Two addresses decoded to the same chip element always read the same", "statement": "If two addresses (of one or two address spaces of equal cell width) are decoded to the same element of the same chip, then after any sequence of writes anywhere, reading either gives the same value.", "quantifier": "all mappings, all histories of writes", "why_tests_cant": "Histories are unbounded.", "anchors": ["src/core/sim.src/mem.cc:cl_memory_cell::decode", "src/core/sim.src/mem.cc:cl_memory_cell::read"]}
{"id": "C04", "title": "Read-only locations keep their content, download overrides it", "statement": "While the read-only flag of a location is set, no sequence of write or set operations at that location changes what it reads; download stores the truncated value regardless of the flag.", "quantifier": "all histories of writes and sets at the location, all values", "why_tests_cant": "Unbounded histories.", "anchors": ["src/core/sim.src/mem.cc:cl_memory_cell::write", "src/core/sim.src/mem.cc:cl_memory_cell::set", "src/core/sim.src/mem.cc:cl_memory_cell::download"]}
{"id": "C05", "title": "Out-of-range accesses are reported and corrupt no decoded memory", "statement": "Accessing an address outside [start, start+size) of an address space reports exactly one invalid-address error and changes no decoded location of any address space; an in-range access reports no error. No address, however large, wraps into the space.", "quantifier": "all 32-bit addresses, all spaces whose start+size fits in 32 bits, all states", "why_tests_cant": "All 2^32 addresses including wrap-around ones.", "anchors": ["src/core/sim.src/mem.cc:cl_address_space::read", "src/core/sim.src/mem.cc:cl_address_space::write", "src/core/sim.src/mem.cc:cl_memory::err_inv_addr", "src/core/sim.src/mem.cc:cl_dummy_cell::write"]}
{"id": "C06", "title": "A successful decoder activation maps exactly the requested area", "statement": "When activating an address decoder over [b,e] onto a chip from element c reports success, then afterwards every address a in [b,e] whose element c+(a-b) exists in the chip reads and writes that element, and no address outside [b,e] changes its mapping.", "quantifier": "every non-empty space that ends below 2^32, chips of fewer than 2^31 elements, every area, every previous history of decoder creations (memory create addressdecoder command)", "why_tests_cant": "All geometries of overlap between old and new decoders; off-by-one errors hide at boundaries.", "anchors": ["src/core/sim.src/mem.cc:cl_address_decoder::activate", "src/core/sim.src/mem.cc:cl_address_space::undecode_area", "src/core/sim.src/mem.cc:cl_address_space::decode_cell"]}
{"id": "C07", "title": "The decoder list always tells the truth about the mapping", "statement": "After any history of adding and activating address decoders, the decoders in the list are pairwise disjoint, and an address is decoded to chip element k of chip m iff the decoder reported for that address maps it to element k of m; addresses without decoder are undecoded.", "quantifier": "every finite history of decoder creations (memory create addressdecoder command) with arbitrary, possibly overlapping areas, in every non-empty space that ends below 2^32, chips of fewer than 2^31 elements", "why_tests_cant": "Split/shrink/remove cases compose over unbounded histories.", "anchors": ["src/core/sim.src/mem.cc:cl_address_space::undecode_area", "src/core/sim.src/mem.cc:cl_address_decoder::split", "src/core/sim.src/mem.cc:cl_address_decoder::shrink_out_of", "src/core/sim.src/mem.cc:cl_address_space::get_decoder_of"]}
{"id": "C08", "title": "Bank switching follows the selector register", "statement": "With all banks of a banker defined, after any sequence of writes to the selector register and to other memory, the banked area is decoded to the bank number formed by the masked, shifted selector value; and the bank index used never leaves the bank table.", "quantifier": "all selector masks, all write histories, all bank definitions", "why_tests_cant": "Unbounded write histories, all masks.", "anchors": ["src/core/sim.src/mem.cc:cl_banker::init", "src/core/sim.src/mem.cc:cl_banker::actual_bank", "src/core/sim.src/mem.cc:cl_banker::activate", "src/core/sim.src/mem.cc:cl_bank_switcher_operator::write", "src/core/sim.src/mem.cc:cl_banker::add_bank"]}
{"id": "C09", "title": "Bit banding maps the n-th bit address to the right bit", "statement": "After activating a bander with b bits per element and distance d from element c, address begin+n names bit (n mod b) of element c + d*(n div b): reading returns that bit, writing sets or clears only that bit.", "quantifier": "all n, b>0, d, element contents", "why_tests_cant": "Unbounded n and all parameters.", "anchors": ["src/core/sim.src/mem.cc:cl_bander::activate", "src/core/sim.src/mem.cc:cl_bit_cell8::d"]}
{"id": "C10", "title": "Chip slots and element numbers are inverse", "statement": "For every element of a chip, the address of the element maps back to its element number (is_slot after get_slot).", "quantifier": "all chips (1, 2, 4 byte elements), all element numbers", "why_tests_cant": "All element numbers and widths.", "anchors": ["src/core/sim.src/mem.cc:cl_memory_chip::get_slot", "src/core/sim.src/mem.cc:cl_memory_chip::is_slot"]}
{"id": "C11", "title": "Address normalisation always yields a valid address", "statement": "inc_address and validate_address return an address inside the memory that is congruent (modulo the size) to the requested one.", "quantifier": "all addresses, starts, sizes, increments", "why_tests_cant": "Off-by-one at a single address.", "anchors": ["src/core/sim.src/mem.cc:cl_memory::inc_address", "src/core/sim.src/mem.cc:cl_memory::validate_address", "src/core/sim.src/mem.cc:cl_memory::valid_address"]}
{"id": "C12", "title": "Memory search finds the first occurrence", "statement": "search_next returns true with address a iff the pattern (case-insensitively if asked) occurs at a, a is at or after the start address, the whole pattern fits in memory, and no earlier such occurrence exists; it returns false iff there is none.", "quantifier": "all memories, patterns, start addresses", "why_tests_cant": "All contents and lengths.", "anchors": ["src/core/sim.src/mem.cc:cl_memory::search_next"]}
{"id": "C13", "title": "Operators on a cell are observers in a fixed order", "statement": "Attaching breakpoint or peripheral operators to a cell: write passes the value through the operators in attachment order and stores the final value; adding and then removing an operator leaves the cell's behaviour as before; removing one operator never removes or reorders the others.", "quantifier": "all operator chains, all values, all add/remove histories", "why_tests_cant": "Unbounded chains and histories.", "anchors": ["src/core/sim.src/mem.cc:cl_memory_cell::write", "src/core/sim.src/mem.cc:cl_memory_cell::append_operator", "src/core/sim.src/mem.cc:cl_memory_cell::prepend_operator", "src/core/sim.src/mem.cc:cl_memory_cell::remove_operator", "src/core/sim.src/mem.cc:cl_memory_cell::del_operator"]}
{"id": "C14", "title": "Sorted lists stay sorted and search is exact", "statement": "After any history of additions and removals a sorted list is sorted by key; search reports found iff some item has the key; with duplicates allowed the returned index is the first such item, otherwise (not found) the insertion point; without duplicates no two items have equal keys.", "quantifier": "all lists, all total orders on keys, all histories", "why_tests_cant": "Binary search boundary errors only show for particular lengths/positions.", "anchors": ["src/core/utils.src/pobj.cc:cl_sorted_list::search", "src/core/utils.src/pobj.cc:cl_sorted_list::add", "src/core/utils.src/pobj.cc:cl_sorted_list::index_of"]}
{"id": "C15", "title": "Lists behave as sequences and stacks", "statement": "add/add_at/disconn_at/put_at/push/pop/top behave like the corresponding operations on a finite sequence: pop returns the last pushed remaining item, disconn removes exactly one occurrence, indices outside the list are rejected, for any growth (limit/delta) policy with positive delta.", "quantifier": "all operation histories, all limits and deltas", "why_tests_cant": "Unbounded histories; capacity growth at every boundary.", "anchors": ["src/core/utils.src/pobj.cc:cl_list::add_at", "src/core/utils.src/pobj.cc:cl_list::disconn_at", "src/core/utils.src/pobj.cc:cl_list::push", "src/core/utils.src/pobj.cc:cl_list::pop", "src/core/utils.src/pobj.cc:cl_list::set_limit"]}
{"id": "C16", "title": "Variables form a map from names to definitions", "statement": "After any history of adding and deleting variables, looking up a name finds a variable iff the name was added after its last deletion (and not superseded as an analyzer label), and then yields the most recently added definition; no two variables share a name.", "quantifier": "every history of var add/del", "why_tests_cant": "Unbounded histories and names.", "anchors": ["src/core/sim.src/var.cc:cl_var_list::add", "src/core/sim.src/var.cc:cl_var_list::del", "src/core/sim.src/var.cc:cl_var_by_name_list::compare"]}
{"id": "C17", "title": "Address index and name index agree", "statement": "After any history, the variables found through an address (and bit range) are exactly the memory variables present in the name index for that memory, address and bit range, and searching by address returns the first one.", "quantifier": "every history of var add/del with addresses below 2^31", "why_tests_cant": "Two indices updated by separate code over unbounded histories.", "anchors": ["src/core/sim.src/var.cc:cl_var_list::add", "src/core/sim.src/var.cc:cl_var_list::del", "src/core/sim.src/var.cc:cl_var_by_addr_list::search"]}
{"id": "C18", "title": "Label column is wide enough", "statement": "The reported longest variable name length is the length of the longest name currently defined.", "quantifier": "every history of add/del/replace", "why_tests_cant": "Cached value invalidation over unbounded histories.", "anchors": ["src/core/sim.src/var.cc:cl_var_list::get_max_name_len", "src/core/sim.src/var.cc:cl_var_list::add", "src/core/sim.src/var.cc:cl_var_list::del"]}
{"id": "C19", "title": "A fetch breakpoint is set exactly where the user put one", "statement": "After any history of break, tbreak, clear and delete commands, execution is checked for a breakpoint at address a iff a (not yet removed) fetch breakpoint for a exists, for all a inside the code memory.", "quantifier": "every history of breakpoint commands", "why_tests_cant": "Flag bits on cells and the list are updated separately over unbounded histories.", "anchors": ["src/core/sim.src/brk.cc:brk_coll::add_bp", "src/core/sim.src/brk.cc:brk_coll::del_bp", "src/core/sim.src/brk.cc:brk_coll::get_bp", "src/core/sim.src/uc.cc:cl_uc::do_brk", "src/core/cmd.src/cmd_bp.cc:cl_break_cmd::do_fetch"]}
{"id": "C20", "title": "Breakpoint numbers are unique", "statement": "At any time no two existing breakpoints (fetch or event) have the same number, so info/delete by number address exactly one.", "quantifier": "every history of breakpoint creation and deletion", "why_tests_cant": "Number reuse after deletions over unbounded histories.", "anchors": ["src/core/sim.src/uc.cc:cl_uc::make_new_brknr", "src/core/sim.src/brk.cc:brk_coll::add_bp", "src/core/sim.src/uc.cc:cl_uc::rm_brk", "src/core/sim.src/uc.cc:cl_uc::brk_by_nr"]}
{"id": "C21", "title": "Hit counts fire every n-th time", "statement": "A breakpoint with hit count n>=1 (and true condition) stops execution at exactly the n-th, 2n-th, 3n-th... hit; with a condition, it stops at those of them at which the condition is true.", "quantifier": "all n, all numbers of hits, all condition outcomes", "why_tests_cant": "Unbounded number of hits.", "anchors": ["src/core/sim.src/brk.cc:cl_brk::do_hit"]}
{"id": "C22", "title": "Deleting breakpoints removes them and terminates", "statement": "delete nr removes exactly the breakpoint of that number; delete without argument removes all breakpoints and terminates.", "quantifier": "all breakpoint sets, including addresses outside code memory", "why_tests_cant": "Termination for every state.", "anchors": ["src/core/sim.src/uc.cc:cl_uc::rm_brk", "src/core/sim.src/uc.cc:cl_uc::remove_all_breaks", "src/core/sim.src/brk.cc:brk_coll::del_bp"]}
{"id": "C23", "title": "Event breakpoints see every matching access and only those", "statement": "A read (write) event breakpoint on a location is notified exactly once for each read (write) of that location through the address space and never for accesses of other kinds or locations; notification does not alter the value read or written.", "quantifier": "all access histories, all breakpoint sets", "why_tests_cant": "Unbounded access histories.", "anchors": ["src/core/sim.src/mem.cc:cl_memory_cell::set_brk", "src/core/sim.src/mem.cc:cl_read_operator::read", "src/core/sim.src/mem.cc:cl_write_operator::write"]}
{"id": "C24", "title": "Execution history keeps the most recent instructions", "statement": "After any number of executed instructions the history contains, run-length compressed and in order, exactly the most recent at most 10000 runs of executed addresses since the last clear; its size and instruction count are what is listed.", "quantifier": "all execution traces, all keep/clear operations", "why_tests_cant": "Ring-buffer wrap over unbounded traces.", "anchors": ["src/core/sim.src/uc.cc:cl_exec_hist::put", "src/core/sim.src/uc.cc:cl_exec_hist::get_used", "src/core/sim.src/uc.cc:cl_exec_hist::get_insts", "src/core/sim.src/uc.cc:cl_exec_hist::keep"]}
{"id": "C25", "title": "Intel HEX dump and load round-trip", "statement": "Dumping an area of 8-bit memory below 64K in Intel HEX format and loading the text into any memory reproduces exactly the dumped bytes at the same addresses and changes nothing else.", "quantifier": "all contents, areas below 0x10000, line lengths 1..32", "why_tests_cant": "All contents, areas and alignments.", "anchors": ["src/core/sim.src/mem.cc:cl_memory::dump_i", "src/core/sim.src/uc.cc:cl_uc::read_hex_file", "src/core/sim.src/uc.cc:cl_uc::set_rom"]}
{"id": "C26", "title": "Damaged HEX records never modify memory", "statement": "A HEX record whose checksum does not match (in particular: one data, length, address or type byte altered) changes no memory location.", "quantifier": "all records, all single byte alterations, all files", "why_tests_cant": "All records and corruptions.", "anchors": ["src/core/sim.src/uc.cc:cl_uc::read_hex_file"]}
{"id": "C27", "title": "HEX loading honours extended addresses and places words consistently", "statement": "Each data record of a well formed HEX file is placed at base+offset where base is set by the latest type-4 record; for memories wider than 8 bits little-endian words are assembled; nothing outside the addresses named by the records is modified.", "quantifier": "all well formed files, all widths", "why_tests_cant": "Word assembly across record boundaries over unbounded files.", "anchors": ["src/core/sim.src/uc.cc:cl_uc::read_hex_file"]}
{"id": "C28", "title": "S-record loading stores exactly the record's data", "statement": "A correct S1/S2/S3 record with n data bytes at address a loaded into an 8-bit memory sets locations a..a+n-1 to the data and nothing else; records with wrong checksum or too short lines change nothing.", "quantifier": "all records, all lines", "why_tests_cant": "All contents/lengths.", "anchors": ["src/core/sim.src/uc.cc:cl_uc::read_s19_file", "src/core/sim.src/uc.cc:s19", "src/core/sim.src/uc.cc:h2"]}
{"id": "C29", "title": "OMF loading stores content at the recorded offset", "statement": "An OMF-51 content record with offset a and data d0..dn stores d_i at a+i.", "quantifier": "all records", "why_tests_cant": "All contents.", "anchors": ["src/core/sim.src/uc.cc:cl_uc::read_omf_file", "src/core/sim.src/uc.cc:cl_omf_rec::read", "src/core/sim.src/uc.cc:cl_omf_rec::pick_word"]}
{"id": "C30", "title": "Timers count exactly the elapsed clocks", "statement": "After any execution, a running up (down) counter has advanced by exactly the clocks elapsed while it was running and while its class condition (any/ISR/idle/halt) held; adding or deleting one counter does not affect the others.", "quantifier": "all tick histories, all counter sets", "why_tests_cant": "Unbounded histories; indices of the counter table.", "anchors": ["src/core/sim.src/uc.cc:cl_uc::tick", "src/core/sim.src/uc.cc:cl_ticker::tick", "src/core/sim.src/uc.cc:cl_uc::add_counter", "src/core/sim.src/uc.cc:cl_uc::del_counter"]}
{"id": "C31", "title": "Step n executes exactly n instructions unless something stops it", "statement": "Starting with a step count n>0, the simulator stops with reason 'step' after exactly n executed instructions if no instruction reports a stop; if the k-th (k<=n) does, it stops after exactly k.", "quantifier": "all n, all instruction outcomes", "why_tests_cant": "Unbounded n.", "anchors": ["src/core/sim.src/sim.cc:cl_sim::start", "src/core/sim.src/sim.cc:cl_sim::step", "src/core/sim.src/sim.cc:cl_sim::stop"]}
{"id": "C32", "title": "Interrupt nesting respects priorities", "statement": "After any execution history the priorities of the active interrupt levels strictly increase from the main program to the innermost handler; an interrupt source is accepted only if active, enabled, pending, and of higher priority than the current level; leaving a handler restores the previous level.", "quantifier": "all histories of requests, enables, priorities and returns", "why_tests_cant": "Unbounded interleavings of interrupts and returns.", "anchors": ["src/core/sim.src/uc.cc:cl_uc::do_interrupt", "src/sims/s51.src/uc51.cc:cl_51core::do_interrupt", "src/sims/s51.src/uc51.cc:cl_51core::accept_it", "src/sims/s51.src/jmp.cc:instruction_32"]}
{"id": "C33", "title": "8051: addition and subtraction set results and flags correctly", "statement": "ADD/ADDC/SUBB compute the 8-bit result modulo 256, CY = unsigned carry/borrow out of bit 7, AC = out of bit 3, OV = signed overflow, for every addressing mode.", "quantifier": "all operand values, carry inputs, addressing modes, machine states", "why_tests_cant": "Each addressing mode is a separate hand written copy.", "anchors": ["src/sims/s51.src/arith.cc:instruction_24", "src/sims/s51.src/arith.cc:instruction_34", "src/sims/s51.src/arith.cc:instruction_94"]}
{"id": "C34", "title": "8051: decimal adjust yields BCD", "statement": "After ADD or ADDC of two packed BCD bytes, DA A leaves the packed BCD of the decimal sum modulo 100 with CY = decimal carry.", "quantifier": "all BCD pairs and carry in", "why_tests_cant": "Flag interplay.", "anchors": ["src/sims/s51.src/arith.cc:instruction_d4"]}
{"id": "C35", "title": "8051: MUL and DIV", "statement": "MUL AB leaves the 16-bit product in B:A with OV iff it exceeds 255 and CY cleared; DIV AB leaves quotient and remainder with OV cleared, or sets OV and keeps A and B when dividing by zero; A*B recomposes.", "quantifier": "all operand values", "why_tests_cant": "All 65536 operand pairs in every state.", "anchors": ["src/sims/s51.src/arith.cc:instruction_a4", "src/sims/s51.src/arith.cc:instruction_84"]}
{"id": "C36", "title": "8051: call/return and push/pop are inverse", "statement": "With the stack in implemented internal memory, LCALL/ACALL followed by RET (with the stack bytes unchanged) continues at the instruction after the call with the original SP; PUSH x then POP y (internal memory or a CPU register) transfers x to y and restores SP.", "quantifier": "all machine states, all SP values including wrap-around", "why_tests_cant": "SP wrap and aliasing of stack with registers.", "anchors": ["src/sims/s51.src/jmp.cc:inst_lcall", "src/sims/s51.src/jmp.cc:instruction_22", "src/sims/s51.src/mov.cc:instruction_c0", "src/sims/s51.src/mov.cc:instruction_d0"]}
{"id": "C37", "title": "8051: every opcode advances PC by its listed length", "statement": "For each of the 256 opcodes, executing an instruction that does not branch leaves PC advanced by exactly the instruction length reported by the disassembler table.", "quantifier": "all opcodes, all machine states", "why_tests_cant": "Decoder table and execution code are independent; all states.", "anchors": ["src/sims/s51.src/glob.cc:disass_51", "src/core/sim.src/uc.cc:cl_uc::inst_length", "src/sims/s51.src/uc51.cc:cl_51core::exec_inst"]}
{"id": "C38", "title": "8051: parity flag tracks the accumulator", "statement": "After every instruction the P flag read from PSW equals the parity of ACC.", "quantifier": "all instruction sequences, all states", "why_tests_cant": "Any instruction may modify ACC or PSW through several aliases.", "anchors": ["src/sims/s51.src/uc51.cc", "src/sims/s51.src/arith.cc"]}
{"id": "C39", "title": "8051: register banks and bit space alias internal memory", "statement": "R0..R7 are the IRAM bytes selected by PSW.RS1:RS0 after any sequence of PSW modifications; bit address b names bit b mod 8 of IRAM byte 0x20+b/8 (b<0x80) or of SFR b & 0xf8 (b>=0x80).", "quantifier": "all histories of PSW writes, all bit addresses", "why_tests_cant": "Alias maps cached on writes over unbounded histories.", "anchors": ["src/sims/s51.src/uc51.cc:cl_51core::decode_bits", "src/sims/s51.src/uc51.cc:cl_51core::decode_regs"]}
{"id": "C40", "title": "8051: program counter stays in code memory", "statement": "After every instruction PC is a valid 16-bit code address and relative branches wrap modulo 64K.", "quantifier": "all states, displacements", "why_tests_cant": "One single target address misbehaves.", "anchors": ["src/core/sim.src/mem.cc:cl_memory::validate_address", "src/sims/s51.src/jmp.cc:instruction_80", "src/core/sim.src/uc.cc:cl_uc::fetch"]}
{"id": "C41", "title": "8051: timer 0/1 count modulo their mode's range", "statement": "After n machine cycles a running timer in mode 1 (16-bit) holds (start+n) mod 65536 and has signalled overflow exactly floor((start+n)/65536) times; analogously mode 0 (13-bit), mode 2 (8-bit auto reload).", "quantifier": "all start values, all n, any partition of n into instructions", "why_tests_cant": "Unbounded n.", "anchors": ["src/sims/s51.src/timer0.cc", "src/sims/s51.src/timer1.cc"]}
{"id": "C42", "title": "Memory accesses stay inside the chip's storage", "statement": "Reading or writing through any cell decoded to an existing element of a chip touches only bytes inside the storage allocated for that chip, also when the address space is wider than the chip's elements.", "quantifier": "all chip sizes and widths, all space widths, all elements, all values", "why_tests_cant": "Memory safety at every boundary combination.", "anchors": ["src/core/sim.src/mem.cc:cl_memory_chip::get_slot", "src/core/sim.src/mem.cc:cl_memory_chip::cl_memory_chip", "src/core/sim.src/mem.cc:cl_cell32::d"]}
{"id": "C43", "title": "Event breakpoints are transparent", "statement": "Setting read or write event breakpoints on a location changes neither the values the program reads and writes there nor the memory contents.", "quantifier": "all locations, all sets of event breakpoints, all values", "why_tests_cant": "All operator combinations on a cell.", "anchors": ["src/core/sim.src/mem.cc:cl_read_operator::read", "src/core/sim.src/mem.cc:cl_write_operator::write", "src/core/sim.src/mem.cc:cl_memory_cell::read", "src/core/sim.src/mem.cc:cl_memory_cell::set_brk"]}
{"id": "C44", "title": "Fill sets the whole area and nothing else", "statement": "The fill command terminates; afterwards every writable location of the area holds the value truncated to the memory's width and every location outside keeps its content.", "quantifier": "all areas, values, memories", "why_tests_cant": "All areas and wirings.", "anchors": ["src/core/cmd.src/cmd_uc.cc:cl_fill_cmd", "src/core/sim.src/mem.cc:cl_address_space::write"]}
{"id": "C45", "title": "Temporary breakpoints stop once", "statement": "A breakpoint made by tbreak (or by run/next for their stop address) stops execution at most once: when it stops it is removed; until then it stays.", "quantifier": "all histories, fetch and event breakpoints", "why_tests_cant": "Every history before and after the stop.", "anchors": ["src/core/sim.src/uc.cc:do_brk", "src/core/cmd.src/cmd_bp.cc:cl_tbreak_cmd", "src/core/sim.src/uc.cc:check_events"]}
{"id": "C46", "title": "8051: of simultaneous requests the one with the highest priority is served first", "statement": "When several interrupt sources may interrupt at the same moment, the accepted one has the highest priority; among equal priorities the polling order decides.", "quantifier": "all machine states, all sets of pending requests", "why_tests_cant": "Every combination of requests, priorities and program positions.", "anchors": ["src/sims/s51.src/uc51.cc:cl_51core::do_interrupt", "src/sims/s51.src/uc51.cc:cl_51core::priority_of"]}
{"id": "C47", "title": "8051: timers obey their registers at all times", "statement": "After any history of instructions, interrupts, writes to registers or bits from outside and pin changes, each timer works in the mode, as timer or counter, gated and running exactly as TMOD, TCON, the P3 latch and the pins of port 3 say.", "quantifier": "all histories, all other peripherals", "why_tests_cant": "Every order of writes (bytes, bits, interrupt acceptance, debugger) and pin changes.", "anchors": ["src/sims/s51.src/timer0.cc:cl_timer0::write", "src/sims/s51.src/timer0.cc:cl_timer0::happen", "src/sims/s51.src/timer0.cc:cl_timer0::tick", "src/sims/s51.src/port.cc:cl_port"]}
{"id": "C48", "title": "8051: counters count the events on their pin", "statement": "A running timer in counter mode counts each 1-to-0 transition of its pin (T0, T1) exactly once, and only transitions that come while it is enabled.", "quantifier": "all sequences of pin changes, all counts", "why_tests_cant": "Unbounded pin histories.", "anchors": ["src/sims/s51.src/timer0.cc:cl_timer0::happen", "src/sims/s51.src/timer0.cc:cl_timer0::do_mode1"]}
{"id": "C49", "title": "8051: instructions take the machine cycles of the manual", "statement": "Every instruction advances the cycle counter by the number of machine cycles its opcode has in the manual, independent of operands and of whether a branch is taken; the counter after any run is the sum over the instructions (plus the cycle of each accepted interrupt and the cycles spent in a power saving mode).", "quantifier": "all states, all 256 opcodes, all runs", "why_tests_cant": "All operand values and branch outcomes of all opcodes, unbounded runs.", "anchors": ["src/sims/s51.src/jmp.cc", "src/sims/s51.src/mov.cc", "src/sims/s51.src/arith.cc", "src/core/sim.src/uc.cc:cl_uc::tick", "src/core/sim.src/uc.cc:cl_uc::exec_inst_uctab"]}
{"id": "C50", "title": "8051: every instruction does what the manual says", "statement": "Executing the instruction at PC changes accumulator, registers, flags (parity apart), stack, internal, external memory, bits and PC exactly as the instruction set manual of the MCS-51 describes for that opcode and those operands, and nothing else.", "quantifier": "all machine states, all 255 defined opcodes, all operand values", "why_tests_cant": "255 opcodes times every machine state: the operands alias registers, stack, banks and bit addresses.", "anchors": ["src/sims/s51.src/uc51.cc:cl_51core::itab", "src/sims/s51.src/arith.cc", "src/sims/s51.src/logic.cc", "src/sims/s51.src/mov.cc", "src/sims/s51.src/jmp.cc", "src/sims/s51.src/bit.cc", "src/sims/s51.src/inc.cc"]}
{"id": "C51", "title": "8051: programs run as on the manual's machine", "statement": "A program that uses memories and CPU registers computes, after any number of instructions and whatever the peripherals do meanwhile, the same PC, memories and CPU registers (parity flag included) as a machine built from the manual alone.", "quantifier": "all programs, all initial states, any number of instructions, all peripherals", "why_tests_cant": "Unbounded executions.", "anchors": ["src/sims/s51.src/uc51.cc:cl_51core::do_inst", "src/sims/s51.src/uc51.cc:cl_51core::do_interrupt", "src/core/sim.src/uc.cc:cl_uc::exec_inst_uctab", "src/core/sim.src/uc.cc:cl_uc::tick_hw"]}
{"id": "C52", "title": "Expressions are grouped as in C", "statement": "The text of an expression (conditions of breakpoints, arguments of commands, assignments) is accepted iff it is an expression of C's grammar over numbers, memories, bits and variables, and operands are grouped by C's precedences, associativity and parentheses.", "quantifier": "all expression texts, of any length and nesting", "why_tests_cant": "Unbounded nesting of all operators.", "anchors": ["src/core/cmd.src/cmdpars.y:expr", "src/core/cmd.src/cmdpars.y:assignment_expr", "src/core/cmd.src/cmdpars.y:conditional_expr", "src/core/cmd.src/cmdpars.y:bit"]}
{"id": "C53", "title": "Expressions evaluate as in C", "statement": "The value of an expression and the assignments it makes are those of C on 64 bit integers and unsigned 32 bit objects: operators, ++ and --, compound assignment, sign extending casts; operands of && || ?: that C skips have no effect; evaluating an expression without assignments changes nothing.", "quantifier": "all expressions, all machine states", "why_tests_cant": "All nestings of operators and all values.", "anchors": ["src/core/cmd.src/cmdpars.y:primary_expr", "src/core/cmd.src/cmdpars.y:unary_expr", "src/core/cmd.src/cmdpars.y:assignment_expr", "src/core/utils.src/app.cc:cl_app::eval"]}
{"id": "C54", "title": "Assigning to bits changes exactly those bits", "statement": "x[h:l]= v and x.n= v store the low bits of v into the named bits of x, keep all other bits, and yield the bits stored.", "quantifier": "all memories, bit ranges, values", "why_tests_cant": "Every range and value.", "anchors": ["src/core/cmd.src/cmdpars.y:assignment_expr", "src/core/cmd.src/cmdpars.y:bit"]}
{"id": "C55", "title": "Expressions are read as written", "statement": "The characters of an expression are split into the operators, numbers (decimal, 0x and $ hexadecimal, 0 octal, 0b binary) and names the user wrote, with or without blanks where C allows that; a number has the value of its digits.", "quantifier": "all texts, all numbers below 2^63, all names", "why_tests_cant": "Unbounded texts and numbers.", "anchors": ["src/core/cmd.src/cmdlex.l:uc_yy_check_id", "src/core/cmd.src/cmdlex.l"]}
{"id": "C56", "title": "Unknown names in expressions are errors", "statement": "An expression that contains a name which is neither a memory nor a variable is refused.", "quantifier": "all texts, all sets of names", "why_tests_cant": "Every position of the name in every text.", "anchors": ["src/core/cmd.src/cmdlex.l:uc_yy_check_id"]}
{"id": "C57", "title": "8051: external interrupts follow their pins", "statement": "A transition activated external interrupt is requested exactly when the level of its pin (pin and output latch) falls; a level activated one is requested while its pin is low and only then; accepting the interrupt clears the request flag of its own source and no other bit of TCON, and enters the handler at 0003H / 0013H. This holds after every history of instructions, register writes from outside and pin changes.", "quantifier": "all histories of instructions, interrupts, writes, pin changes; all other peripherals", "why_tests_cant": "Unbounded interleavings of the program with the outside world.", "anchors": ["src/sims/s51.src/interrupt.cc", "src/sims/s51.src/port.cc", "src/sims/s51.src/uc51.cc:cl_51core::do_interrupt", "src/sims/s51.src/uc51.cc:cl_51core::accept_it"]}
{"id": "C58", "title": "8051: reset forgets the past", "statement": "reset puts the CPU at address 0 with its registers, register bank, priority level and cycle counter at the documented values, stops and clears timers and external interrupts, keeps the memories; what the machine does afterwards depends on memories and pins only, not on anything it did before.", "quantifier": "all machine states, all later histories", "why_tests_cant": "All pairs of states before the reset and all executions after it.", "anchors": ["src/sims/s51.src/uc51.cc:cl_51core::reset", "src/sims/s51.src/uc51.cc:cl_51core::clear_sfr", "src/sims/s51.src/uc52.cc:cl_uc52::clear_sfr", "src/core/sim.src/uc.cc:cl_uc::reset"]}
{"id": "C59", "title": "8051: Idle and PowerDown", "statement": "A CPU in Idle or PowerDown executes nothing and keeps memories and registers; in Idle the peripherals go on, and an enabled interrupt request (a timer overflow for instance) ends Idle and is served at once; PowerDown is ended by reset only.", "quantifier": "all machine states, any length of sleep", "why_tests_cant": "Unbounded sleeping times, all states.", "anchors": ["src/sims/s51.src/uc51.cc:cl_51core::do_inst", "src/sims/s51.src/uc51.cc:cl_51core::idle_pd", "src/sims/s51.src/uc51.cc:cl_51core::do_interrupt", "src/core/sim.src/uc.cc:cl_uc::tick"]}
{"id": "C60", "title": "8080/8085: every instruction does what the manual says", "statement": "From any state, executing any instruction of the 8080 (8085) changes registers, flags, stack and memory exactly as the programmer's manual says, and nothing else; so does every program, for any number of instructions.", "quantifier": "all machine states, all opcodes and operands, programs of any length", "why_tests_cant": "2^(8*65546) states, unbounded runs.", "anchors": ["src/sims/i8085.src/i8085.cc", "src/sims/i8085.src/ialu.cc", "src/sims/i8085.src/imove.cc", "src/sims/i8085.src/ibranch.cc", "src/sims/i8085.src/inst.cc", "src/sims/i8085.src/i8080.cc"]}
{"id": "C61", "title": "8080/8085: BCD addition", "statement": "ADD (or ADC) of two packed BCD numbers followed by DAA gives the packed BCD sum in A and the decimal carry in CY.", "quantifier": "all pairs of BCD bytes, either carry, all operand registers, all states", "why_tests_cant": "All operands from every state, both instructions.", "anchors": ["src/sims/i8085.src/ialu.cc:cl_i8080::DAA", "src/sims/i8085.src/ialu.cc"]}
{"id": "C62", "title": "8080/8085: clock counts", "statement": "The simulated clock advances by the number of states the manual gives for the instruction executed, for both outcomes of conditional instructions.", "quantifier": "all states, all opcodes", "why_tests_cant": "Every opcode from every state.", "anchors": ["src/sims/i8085.src/glob.cc:tick_tab_8080", "src/sims/i8085.src/glob.cc:tick_tab_8085", "src/sims/i8085.src/i8080.cc:cl_i8080::exec_inst"]}
{"id": "C63", "title": "8080/8085: disassembly", "statement": "The disassembled text of an instruction is its mnemonic with the operands found in memory, and the length shown is the number of bytes executing it consumes.", "quantifier": "all opcodes, operand bytes, addresses", "why_tests_cant": "Every opcode and operand, at every address.", "anchors": ["src/sims/i8085.src/i8080.cc:cl_i8080::disassc", "src/sims/i8085.src/glob.cc"]}
{"id": "C64", "title": "next steps over subroutine calls", "statement": "The next command on a call instruction stops when the program is back at the instruction following the call, whatever the subroutine does in between; on any other instruction it executes that one instruction.", "quantifier": "all programs, all subroutines, any running time", "why_tests_cant": "Unbounded subroutines.", "anchors": ["src/core/cmd.src/cmd_exec.cc:cl_next_cmd::do_work", "src/sims/s51.src/glob.cc", "src/core/sim.src/uc.cc:cl_uc::is_call", "src/sims/i8085.src/glob.cc"]}
{"id": "C65", "title": "8085: the additional instructions", "statement": "DSUB, ARHL, RDEL, LDHI, LDSI, RSTV, SHLX, LHLX, JNX5 and JX5 do what the literature on the 8085 says.", "quantifier": "all machine states", "why_tests_cant": "Every state.", "anchors": ["src/sims/i8085.src/i8085.cc", "src/sims/i8085.src/i8085cl.h"]}
{"id": "C66", "title": "6502: every instruction does what the manual says", "statement": "From any state, executing any documented instruction of the 6502 changes registers, flags, stack and memory exactly as the programming manual says, and nothing else; so does every program, for any number of instructions. An undefined opcode stops the simulation and changes nothing; reset starts at the reset vector.", "quantifier": "all machine states, all opcodes and operands, programs of any length", "why_tests_cant": "2^(8*65543) states, unbounded runs.", "anchors": ["src/sims/mos6502.src/mos6502.cc", "src/sims/mos6502.src/mos6502cl.h", "src/sims/mos6502.src/ialu.cc", "src/sims/mos6502.src/imove.cc", "src/sims/mos6502.src/ibranch.cc", "src/sims/mos6502.src/inst.cc", "src/sims/mos6502.src/decode.h"]}
{"id": "C67", "title": "6502: decimal arithmetic", "statement": "In decimal mode ADC and SBC of packed BCD bytes give the decimal sum and difference with the decimal carry (borrow); so numbers of any length are added and subtracted byte by byte.", "quantifier": "all BCD operands, both carries, numbers of any length", "why_tests_cant": "Unbounded numbers.", "anchors": ["src/sims/mos6502.src/ialu.cc:cl_mos6502::adc", "src/sims/mos6502.src/ialu.cc:cl_mos6502::sbc"]}
{"id": "C68", "title": "6502: clock counts", "statement": "The simulated clock advances by the number of cycles the manual gives for the instruction executed, page crossings and taken branches included.", "quantifier": "all states, all opcodes", "why_tests_cant": "Every opcode from every state.", "anchors": ["src/sims/mos6502.src/mos6502.cc:cl_mos6502::exec_inst", "src/sims/mos6502.src/mos6502cl.h", "src/sims/mos6502.src/ibranch.cc:cl_mos6502::branch"]}
{"id": "C69", "title": "6502: interrupts", "statement": "After each instruction a requested IRQ is taken iff I is clear, a requested NMI is taken whatever I is, once for each request; BRK is a software interrupt: PC and status are pushed (B shows BRK), I is set, PC comes from the vector, seven cycles pass; RTI returns to the interrupted program with its flags.", "quantifier": "all machine states, all handlers", "why_tests_cant": "Every state and every handler.", "anchors": ["src/sims/mos6502.src/mos6502.cc:cl_mos6502::accept_it", "src/sims/mos6502.src/mos6502.cc:cl_mos6502::make_hw_elements", "src/sims/mos6502.src/irq.cc", "src/core/sim.src/uc.cc:cl_uc::do_interrupt"]}
{"id": "C70", "title": "6502: disassembly", "statement": "The disassembled text of an instruction is its mnemonic with the operands found in memory in the notation of its addressing mode, and the length shown is the number of bytes executing it consumes.", "quantifier": "all opcodes, operand bytes, addresses", "why_tests_cant": "Every opcode and operand, at every address.", "anchors": ["src/sims/mos6502.src/mos6502.cc:cl_mos6502::disassc", "src/sims/mos6502.src/glob.cc"]}
{"id": "C71", "title": "8051 serial line: sending", "statement": "What is written to SBUF is sent on the output in that order, each byte at most once and nothing else; a program that waits for TI before each write loses nothing.", "quantifier": "all histories of register accesses, machine cycles, timer overflows and input", "why_tests_cant": "Unbounded histories.", "anchors": ["src/sims/s51.src/serial.cc:cl_serial::tick", "src/sims/s51.src/serial.cc:cl_serial::write", "src/sims/s51.src/serial.cc:cl_serial::serial_bit_cnt"]}
{"id": "C72", "title": "8051 serial line: bit rate", "statement": "A frame (8, 10 or 11 bits by mode) takes the time the manual gives: 12 clocks a bit in mode 0, 64 or 32 in mode 2, 32 or 16 overflows of timer 1 or 16 of timer 2 in modes 1 and 3; TI or RI is set in the first machine cycle after it and not before, whatever was done with the line earlier.", "quantifier": "all earlier histories, modes, settings, interleavings of cycles, overflows and accesses", "why_tests_cant": "Unbounded histories and interleavings.", "anchors": ["src/sims/s51.src/serial.cc:cl_serial::serial_bit_cnt", "src/sims/s51.src/serial.cc:cl_serial::write", "src/sims/s51.src/serial.cc:cl_serial::happen", "src/sims/s51.src/serial.cc:cl_serial::tick"]}
{"id": "C73", "title": "8051 serial line: receiving", "statement": "The bytes received are the input in its order, nothing lost, doubled or made up; each line end (CR, LF, CR LF, LF CR) of the input becomes the characters of the option nl, and without that option every byte is received as it is.", "quantifier": "all inputs, options and histories", "why_tests_cant": "Unbounded input and histories.", "anchors": ["src/core/sim.src/serial_hw.cc:cl_serial_hw::get_input", "src/core/sim.src/serial_hw.cc:cl_serial_hw::proc_not_in_menu", "src/sims/s51.src/serial.cc:cl_serial::tick"]}
{"id": "C74", "title": "8051 serial line: flow control", "statement": "With flow control a program that reads SBUF after each reception reads all the input however slow it is; a reset of the CPU does not stop the input.", "quantifier": "all inputs and all histories in which SBUF is read after receptions only", "why_tests_cant": "Unbounded histories, any speed of the program.", "anchors": ["src/core/sim.src/serial_hw.cc:cl_serial_hw::proc_not_in_menu", "src/sims/s51.src/serial.cc:cl_serial::read", "src/sims/s51.src/serial.cc:cl_serial::reset"]}
{"id": "C75", "title": "8052 timer 2: counting", "statement": "In each machine cycle timer 2 does what the manual says for the mode chosen in T2CON and T2MOD (capture, auto-reload up, auto-reload up/down, baud rate generator), counting machine cycles or falling edges at T2: so after n cycles the count, TF2 and the number of overflows are those of a 16 bit counter with that reload value.", "quantifier": "all histories of register writes, pin changes, machine cycles and resets, all reload values and numbers of cycles", "why_tests_cant": "Unbounded histories.", "anchors": ["src/sims/s51.src/timer2.cc:cl_timer2::tick", "src/sims/s51.src/timer2.cc:cl_timer2::write", "src/sims/s51.src/timer2.cc:cl_timer2::do_t2_baud", "src/sims/s51.src/timer2.cc:cl_timer2::do_t2_capture", "src/sims/s51.src/timer2.cc:cl_timer2::do_t2_reload", "src/sims/s51.src/timer2.cc:cl_timer2::do_t2_down"]}
{"id": "C76", "title": "8052 timer 2: external input", "statement": "With EXEN2 set a falling edge at T2EX captures (or reloads) the timer in the next machine cycle and sets EXF2; without an edge, or with EXEN2 clear, no machine cycle does that.", "quantifier": "all histories, all sequences of levels at the pin between two cycles", "why_tests_cant": "Unbounded histories and pin sequences.", "anchors": ["src/sims/s51.src/timer2.cc:cl_timer2::happen", "src/sims/s51.src/timer2.cc:cl_timer2::do_t2_capture", "src/sims/s51.src/timer2.cc:cl_timer2::do_t2_reload", "src/sims/s51.src/port.cc:cl_port::write"]}
{"id": "C77", "title": "8052: baud rate from timer 2", "statement": "With timer 2 as the baud rate generator a bit of the serial line takes 32*(65536-RCAP2) clocks of the oscillator: a byte written to SBUF is out in exactly that machine cycle, whatever was done before.", "quantifier": "all histories of both devices, all RCAP2, any number of cycles", "why_tests_cant": "Unbounded histories; composition of two devices.", "anchors": ["src/sims/s51.src/timer2.cc:cl_timer2::do_t2_baud", "src/sims/s51.src/serial.cc:cl_serial::happen", "src/sims/s51.src/serial.cc:cl_serial::serial_bit_cnt", "src/core/sim.src/uc.cc:cl_uc::tick_hw"]}
{"id": "C78", "title": "input files: bytes", "statement": "Input given to the simulator in a file, pipe or character device reaches its reader once, in order and unchanged; input_avail says yes exactly when read gives data or the end, and the end (read returns 0, eof) is reported when everything was read and only then.", "quantifier": "all files, all interleavings of input_avail and read calls, all ways the operating system may cut the data into pieces", "why_tests_cant": "Unbounded files and schedules.", "anchors": ["src/core/utils.src/fio.cc:cl_f::put", "src/core/utils.src/fio.cc:cl_f::get", "src/core/utils.src/fio.cc:cl_f::pick", "src/core/utils.src/fio.cc:cl_f::input_avail", "src/core/utils.src/fio.cc:cl_f::read_dev", "src/core/utils.src/fio.cc:cl_f::eof", "src/core/utils.src/fuio.cc:cl_io::check_dev"]}
{"id": "C79", "title": "command files: lines", "statement": "Every line of a command file (lines ended with LF, CR or both, the last one possibly not ended) is handed to the command interpreter in order and unchanged, and the console is closed after the last line and not before.", "quantifier": "all files, all polling schedules, all ways the operating system may cut the data into pieces", "why_tests_cant": "Unbounded files and schedules.", "anchors": ["src/core/cmd.src/newcmdposix.cc:cl_console::read_line", "src/core/cmd.src/newcmdposix.cc:cl_commander::proc_input", "src/core/cmd.src/newcmd.cc:cl_console_base::proc_input"]}
{"id": "C80", "title": "command line: editing", "statement": "What the user types and edits on the command line of an interactive console is what the console executes: whatever keys are pressed, the line has the text and cursor that the keys call for (characters, cursor keys, Home/End, Backspace, Del, ^K, history), and every line ended with Enter is handed to the command interpreter once, in order, unchanged.", "quantifier": "all lists of keys, all codes terminals send for them, all line end conventions, all ways the operating system may cut the characters into pieces", "why_tests_cant": "Unbounded sessions and schedules.", "anchors": ["src/core/utils.src/fio.cc:cl_f::process", "src/core/utils.src/fio.cc:cl_f::process_esc", "src/core/utils.src/fio.cc:cl_f::process_csi", "src/core/utils.src/fio.cc:cl_f::pick", "src/core/cmd.src/newcmdposix.cc:cl_console::read_line"]}
{"id": "C81", "title": "command line: display", "statement": "The terminal always shows, after the prompt, exactly the line that is being edited, with the cursor at its place, and the prompt is never overwritten.", "quantifier": "all sequences of characters (any bytes), any content of the screen before, a terminal that is wide enough", "why_tests_cant": "Unbounded sequences.", "anchors": ["src/core/utils.src/fio.cc:cl_f::process", "src/core/utils.src/fio.cc:cl_f::echo_write", "src/core/utils.src/fio.cc:cl_f::echo_cursor_go_left", "src/core/utils.src/fio.cc:cl_f::echo_cursor_save"]}
{"id": "C82", "title": "command line: history", "statement": "Up and Down show the lines entered before, newest first, and Down comes back to the line that was being typed; looking at old lines does not change the history.", "quantifier": "all sessions, all sequences of Up and Down", "why_tests_cant": "Unbounded sessions.", "anchors": ["src/core/utils.src/fio.cc:cl_history::up", "src/core/utils.src/fio.cc:cl_history::down", "src/core/utils.src/fio.cc:cl_history::enter", "src/core/utils.src/fio.cc:cl_history::replace"]}
{"id": "C83", "title": "command line: buffers", "statement": "No sequence of characters coming from a terminal or a network connection makes the line editor write outside of its buffers or call library functions with invalid arguments; a line is at most 1023 characters long and the cursor is always within it.", "quantifier": "all sequences of bytes", "why_tests_cant": "Unbounded sequences of arbitrary bytes.", "anchors": ["src/core/utils.src/fio.cc:cl_f::process", "src/core/utils.src/fio.cc:cl_f::process_esc", "src/core/utils.src/fio.cc:cl_f::process_csi", "src/core/utils.src/fio.cc:cl_f::process_telnet"]}
{"id": "C84", "title": "simulator interface: commands", "statement": "A simulated program that writes a command of the simulator interface with its arguments and reads the whole answer gets the documented answer and causes exactly the documented effects (characters on the console, bytes in the output file, stop, reset, execution limit), whatever commands it gave before; input bytes are read once, in order, none lost.", "quantifier": "all sequences of commands and arguments, all input files, for pipes all behaviours of the operating system", "why_tests_cant": "Unbounded histories, files and schedules.", "anchors": ["src/core/sim.src/simif.cc:cl_simulator_interface::read", "src/core/sim.src/simif.cc:cl_simulator_interface::write", "src/core/sim.src/simif.cc:cl_sif_command::need_params", "src/core/sim.src/simif.cc:cl_sif_command::start_answer", "src/core/sim.src/simif.cc:cl_sif_read::produce_answer", "src/core/sim.src/simif.cc:cl_sif_fin_check::produce_answer", "src/core/sim.src/simif.cc:cl_sif_setlimit::produce_answer", "src/core/sim.src/simif.cc:cl_sif_getlimit::produce_answer", "docs/simif.html"]}
{"id": "C85", "title": "simulator interface: any program", "statement": "Whatever a program does with the cell of the simulator interface, reads of waiting or idle states and writes during an answer have no effects, and the interface can be brought back to its default state with the reset command.", "quantifier": "all sequences of reads and writes", "why_tests_cant": "Unbounded sequences.", "anchors": ["src/core/sim.src/simif.cc:cl_sif_command::read", "src/core/sim.src/simif.cc:cl_sif_command::write", "src/core/sim.src/simif.cc:cl_simulator_interface::finish_command", "docs/simif.html"]}
{"id": "C86", "title": "Z80: instructions", "statement": "Every instruction of the Z80 (unprefixed, CB, ED, DD, FD, DDCB, FDCB) changes registers, flags, interrupt flip-flops, memory, ports and PC exactly as Zilog's manual says, and the simulation stops just at HALT; so a program computes what it computes on the chip.", "quantifier": "all machine states, all documented instructions, programs of any length", "why_tests_cant": "2^200 states, more than 1000 instructions, unbounded runs.", "anchors": ["src/sims/z80.src/z80.cc:cl_z80::exec_inst", "src/sims/z80.src/inst.cc", "src/sims/z80.src/inst_cb.cc", "src/sims/z80.src/inst_ed.cc", "src/sims/z80.src/inst_xd.cc", "src/sims/z80.src/inst_xxcb.cc", "src/sims/z80.src/z80mac.h", "src/sims/z80.src/instcl.h"]}
{"id": "C87", "title": "Z80: clock periods", "statement": "Every instruction of the Z80 takes the number of clock periods (T states) the manual gives, so elapsed time measured by the simulator is the time of the chip.", "quantifier": "all machine states, all documented instructions, programs of any length", "why_tests_cant": "Unbounded runs, every state.", "anchors": ["src/sims/z80.src/z80.cc:cl_z80::exec_inst", "src/sims/z80.src/inst.cc", "src/sims/z80.src/inst_cb.cc", "src/sims/z80.src/inst_ed.cc", "src/sims/z80.src/inst_xd.cc", "src/sims/z80.src/inst_xxcb.cc"]}
{"id": "C88", "title": "Z80: blocks", "statement": "LDIR and LDDR copy a block of BC bytes (65536 when BC is 0) and change nothing else, also when blocks overlap the copying is byte by byte; CPIR and CPDR stop behind the first byte equal to A, or after the last byte with Z clear.", "quantifier": "all lengths, addresses and contents of the memory", "why_tests_cant": "Unbounded repetition, all overlaps.", "anchors": ["src/sims/z80.src/inst_ed.cc:cl_z80::inst_ed_ldir", "src/sims/z80.src/inst_ed.cc:cl_z80::inst_ed_lddr", "src/sims/z80.src/inst_ed.cc:cl_z80::inst_ed_cpir", "src/sims/z80.src/inst_ed.cc:cl_z80::inst_ed_cpdr"]}
{"id": "C89", "title": "Z80: decimal arithmetic", "statement": "ADD or ADC (SUB or SBC) of two numbers of two decimal digits followed by DAA leaves the last two decimal digits of the sum (difference) in A and the decimal carry (borrow) in C, for every kind of operand.", "quantifier": "all numbers, both carries, all machine states", "why_tests_cant": "All states of the machine around the two instructions.", "anchors": ["src/sims/z80.src/inst.cc:cl_z80::inst_daa", "src/sims/z80.src/z80mac.h:add_A_bytereg", "src/sims/z80.src/z80mac.h:sub_A_bytereg"]}
{"id": "C90", "title": "Z80: disassembly", "statement": "The disassembler shows every documented instruction as the manual writes it with the operands that are in memory, knows its length, and knows the calls (for next).", "quantifier": "all memory contents, all documented instructions", "why_tests_cant": "Seven tables, all operand values.", "anchors": ["src/sims/z80.src/z80.cc:cl_z80::disass", "src/sims/z80.src/z80.cc:cl_z80::get_disasm_info", "src/sims/z80.src/z80.cc:cl_z80::inst_length", "src/sims/z80.src/z80.cc:cl_z80::is_call", "src/sims/z80.src/glob.cc"]}
{"id": "C91", "title": "Z80: reset and refresh register", "statement": "Reset starts the program at address 0 with interrupts disabled in mode 0 and I = R = 0; R counts the opcode fetches in its low seven bits, its highest bit stays as loaded.", "quantifier": "all states, programs of any length", "why_tests_cant": "Unbounded runs.", "anchors": ["src/sims/z80.src/z80.cc:cl_z80::reset", "src/sims/z80.src/z80.cc:cl_z80::inc_R", "src/sims/z80.src/z80.cc:cl_z80::exec_inst"]}
{"id": "C92", "title": "Command lines: arguments", "statement": "However a command is written (names, numbers in decimal, octal, hexadecimal, binary, signs, strings with escapes, elements x[i], bits x.b and x[h:l], redirections, any blanks or commas between them, a comment or a further command after it), the command gets exactly the arguments meant, in their order, and its output goes where meant; what is not an argument is reported; no line makes the simulator read outside the line.", "quantifier": "all lines of any length", "why_tests_cant": "Unbounded lines of all shapes.", "anchors": ["src/core/cmd.src/command.cc:cl_cmdline::split", "src/core/cmd.src/command.cc:cl_cmdline::shift", "src/core/cmd.src/command.cc:cl_cmdline::set_data_list", "src/core/sim.src/arg.cc"]}
{"id": "C93", "title": "Command lines: sequences", "statement": "Commands on one line separated by ; do what they do when entered on lines of their own, each once and in this order; a comment or an empty line does nothing; a command that ends the session ends it.", "quantifier": "all sequences of any number of commands, all command sets", "why_tests_cant": "Unbounded sequences.", "anchors": ["src/core/cmd.src/newcmd.cc:cl_console_base::proc_input", "src/core/cmd.src/command.cc:cl_cmdline::restart_at_rest", "src/core/cmd.src/command.cc:cl_cmdset::get_cmd", "src/core/cmd.src/command.cc:cl_super_cmd::work"]}
{"id": "C94", "title": "Command lines: names, subcommands, repetition", "statement": "A command is found by its name or by any prefix that fits no other command, through any depth of subcommands, and is run once with the remaining arguments; an empty line repeats the last command that can be repeated.", "quantifier": "all command sets, all names, any depth of subcommands", "why_tests_cant": "All command sets and names.", "anchors": ["src/core/cmd.src/command.cc:cl_cmdset::get_cmd", "src/core/cmd.src/command.cc:cl_super_cmd::work", "src/core/cmd.src/command.cc:cl_cmd::name_match", "src/core/cmd.src/newcmd.cc:cl_console_base::proc_input"]}
{"id": "C95", "title": "set memory", "statement": "set memory stores the values meant by its data (numbers, characters of strings with escapes) one after the other from the address on, each modulo the width of the memory, and changes nothing else; with a bit argument exactly the bits meant change; what can not be stored is reported.", "quantifier": "all memories and their wiring, addresses, lists of data of any length", "why_tests_cant": "Unbounded data, all memory systems.", "anchors": ["src/core/cmd.src/cmd_set.cc:cl_set_mem_cmd", "src/core/cmd.src/command.cc:cl_cmdline::set_data_list", "src/core/cmd.src/cmdutil.cc:proc_escape", "src/core/sim.src/arg.cc:get_bit_address"]}
{"id": "C96", "title": "dump: ranges", "statement": "dump with two addresses shows exactly the locations of the memory between them, each once, in the order asked for (up or down), with as many values on a line as asked for and every line with the address of its first value; with one address it shows the 65 locations from there; it always ends.", "quantifier": "all memories (start, size, width, contents), addresses, numbers of values on a line", "why_tests_cant": "All memories and ranges, termination.", "anchors": ["src/core/sim.src/mem.cc:cl_memory::dump", "src/core/cmd.src/cmd_uc.cc:cl_dump_cmd"]}
{"id": "C97", "title": "dump: repetition", "statement": "dump without addresses goes on where the last dump of the memory ended; repeated it shows the whole memory, ten lines at a time, without gaps and overlaps, and then starts again.", "quantifier": "all memories, any number of repetitions", "why_tests_cant": "Unbounded repetition.", "anchors": ["src/core/sim.src/mem.cc:cl_memory::dump", "src/core/sim.src/memcl.h:dump_finished", "src/core/cmd.src/cmd_uc.cc:cl_dump_cmd"]}
{"id": "C98", "title": "dump: names and code", "statement": "The default dump shows every location asked for once, all names of every location, and for names of bits the value of these bits; of the program memory it shows the instructions one after the other; without addresses it shows ten lines.", "quantifier": "all memories, tables of variables, ranges", "why_tests_cant": "All tables of variables against all ranges.", "anchors": ["src/core/sim.src/mem.cc:cl_memory::dump", "src/core/sim.src/var.cc:cl_vars_iterator", "src/core/cmd.src/cmd_uc.cc:cl_dump_cmd"]}
{"id": "C99", "title": "dump: strings and bytes", "statement": "dump /s writes the bytes up to the first zero as a string of C that stands for just these bytes; dump /b writes just the bytes of the locations asked for and touches no other location; what dump /s writes can be stored again with set memory.", "quantifier": "all memories and addresses", "why_tests_cant": "All contents of memory.", "anchors": ["src/core/sim.src/mem.cc:cl_memory::dump_s", "src/core/sim.src/mem.cc:cl_memory::dump_b", "src/core/utils.src/fio.cc:cl_f::prntf", "src/core/cmd.src/cmdutil.cc:proc_escape"]}
{"id": "C100", "title": "M68HC08 and HCS08: programs", "statement": "Executing a program of any length gives the registers, flags and memory that the CPU08 (HCS08) manual says, for every instruction and addressing mode; an opcode without meaning stops the simulation and changes nothing.", "quantifier": "all programs, all states of registers and memory, any number of instructions, both processors", "why_tests_cant": "All programs and states.", "anchors": ["src/sims/m68hc08.src/m68hc08.cc:cl_hc08::exec_inst", "src/sims/m68hc08.src/inst.cc", "src/sims/m68hc08.src/hc08mac.h"]}
{"id": "C101", "title": "M68HC08: decimal arithmetic", "statement": "ADD or ADC of two decimal numbers followed by DAA leaves the two decimal digits of the sum in A and the carry of the decimal sum in C.", "quantifier": "all pairs of two-digit numbers and carries, all states", "why_tests_cant": "Composition of two instructions for all operands and states.", "anchors": ["src/sims/m68hc08.src/inst.cc:cl_hc08::inst_daa", "src/sims/m68hc08.src/inst.cc:cl_hc08::inst_add", "src/sims/m68hc08.src/inst.cc:cl_hc08::inst_adc"]}
{"id": "C102", "title": "M68HC08 and HCS08: cycles", "statement": "Every instruction advances the clock by the number of cycles in the manual of the processor, in all states.", "quantifier": "all instructions and addressing modes, all states, both processors", "why_tests_cant": "All states.", "anchors": ["src/sims/m68hc08.src/m68hc08.cc:cl_hc08::exec_inst", "src/sims/m68hc08.src/inst.cc"]}
{"id": "C103", "title": "M68HC08: reset", "statement": "After reset execution starts at the address in the vector at FFFE with interrupts masked and SP 00FF; memory is kept; a PC set by the user after reset is where execution starts.", "quantifier": "all states and memories", "why_tests_cant": "All states.", "anchors": ["src/sims/m68hc08.src/m68hc08.cc:cl_hc08::reset", "src/sims/m68hc08.src/m68hc08.cc:cl_hc08::exec_inst"]}
{"id": "C104", "title": "M68HC08: disassembly", "statement": "The text shown for an instruction is its assembly language, the length is the number of its bytes (so that a listing shows the instructions that are executed one after the other), and calls are exactly the instructions that save a return address.", "quantifier": "all instructions with all operands at all addresses, both processors", "why_tests_cant": "All instructions, operands and addresses.", "anchors": ["src/sims/m68hc08.src/m68hc08.cc:cl_hc08::disass", "src/sims/m68hc08.src/m68hc08.cc:cl_hc08::get_disasm_info", "src/sims/m68hc08.src/glob.cc:disass_hc08"]}
{"id": "C105", "title": "9S08: linear pointer and program pages", "statement": "All accesses of a program see the memory the manual describes: PPAGE selects the 16K page of the 128K extended memory shown at 8000-BFFF, the other addresses from 2080 on show the first 64K; LAP reads back as written, LAPAB adds a signed byte to it, LWP and LBP access the byte it points to and advance it (modulo 128K), LB does not advance it; a block written through them is read back from the same addresses and nothing else changes; pages do not disturb each other.", "quantifier": "all sequences of reads and writes of any length, all contents of memory, all pages, pointers and blocks", "why_tests_cant": "All histories of accesses.", "anchors": ["src/sims/m68hc08.src/m68hc08.cc:cl_mmu::read", "src/sims/m68hc08.src/m68hc08.cc:cl_mmu::write", "src/sims/m68hc08.src/m68hc08.cc:cl_9s08::make_memories"]}
{"id": "C106", "title": "9S08: CALL and RTC", "statement": "CALL saves the return address and the page and goes to its target in its page; whatever the subroutine does, if it keeps the stack, RTC returns behind the CALL in the page of the caller with the stack pointer it had.", "quantifier": "all pages, addresses, stack positions in RAM and all subroutines", "why_tests_cant": "All subroutines and states.", "anchors": ["src/sims/m68hc08.src/m68hc08.cc:cl_9s08::inst_call", "src/sims/m68hc08.src/m68hc08.cc:cl_9s08::inst_rtc"]}
{"id": "C107", "title": "9S08: instruction set and listings", "statement": "The 9S08 executes all instructions of the HCS08 besides CALL and RTC, and listings show every instruction with its text and length.", "quantifier": "all instructions at all addresses", "why_tests_cant": "All instructions, operands and addresses.", "anchors": ["src/sims/m68hc08.src/m68hc08.cc:cl_9s08::get_disasm_info", "src/sims/m68hc08.src/inst.cc:cl_hc08::inst_ldhx", "src/sims/m68hc08.src/inst.cc:cl_hc08::inst_cphx"]}
{"id": "C108", "title": "MCS-48: programs", "statement": "Executing a program of any length on an 8048 gives the registers, flags, data memory, ports and external memory that the MCS-48 manual says, for every instruction; a code without meaning stops the simulation and changes nothing but the bus.", "quantifier": "all programs, all states, any number of instructions", "why_tests_cant": "All programs and states.", "anchors": ["src/sims/i8048.src/i8020.cc:cl_i8020::exec_inst", "src/sims/i8048.src/arith.cc", "src/sims/i8048.src/branch.cc:CL2::djnz", "src/sims/i8048.src/move.cc", "src/sims/i8048.src/i8020cl.h"]}
{"id": "C109", "title": "MCS-48: subroutines", "statement": "CALL saves the return address and the upper half of PSW; RET returns behind the CALL, RETR also restores carry, auxiliary carry, F0 and the register bank; nested calls up to eight levels, interrupts included, do not disturb each other.", "quantifier": "all nestings up to the depth of the stack, all states and subroutines", "why_tests_cant": "All histories of calls and interrupts.", "anchors": ["src/sims/i8048.src/i8020.cc:cl_i8020::push", "src/sims/i8048.src/i8020.cc:cl_i8020::pop", "src/sims/i8048.src/i8048.cc:cl_i8048::RETR"]}
{"id": "C110", "title": "MCS-48: timer and event counter", "statement": "After STRT T the timer is incremented every 32 machine cycles, after STRT CNT at every fall of T1; the flag tested by JTF is set when it passes from FF to 0, JTF clears it; STOP TCNT stops both.", "quantifier": "any number of clocks, any history of levels of T1, all states", "why_tests_cant": "Any number of clocks.", "anchors": ["src/sims/i8048.src/timer.cc:cl_timer::tick", "src/sims/i8048.src/timer.cc:cl_timer::do_timer"]}
{"id": "C111", "title": "MCS-48: interrupts", "statement": "An enabled external interrupt (INT low) saves PC and PSW and goes to 3, an enabled overflow of the timer to 7; no interrupt is taken while one is served; after RETR the interrupted program goes on as if nothing had happened.", "quantifier": "all states, all interrupt routines that keep the stack", "why_tests_cant": "All moments of interrupts and all routines.", "anchors": ["src/sims/i8048.src/i8048.cc:cl_i8048::accept_it", "src/sims/i8048.src/i8048.cc:cl_i8048::make_irq_sources", "src/sims/i8048.src/timer.cc", "src/sims/i8048.src/ints.cc"]}
{"id": "C112", "title": "MCS-48: machine cycles", "statement": "Every instruction takes one or two machine cycles as in the manual, in all states.", "quantifier": "all instructions in all states", "why_tests_cant": "All states.", "anchors": ["src/sims/i8048.src/i8020.cc:cl_i8020::exec_inst", "src/sims/i8048.src/decode.h"]}
{"id": "C113", "title": "MCS-48: decimal arithmetic", "statement": "ADD or ADDC of two decimal numbers followed by DA A leaves the two decimal digits of the sum in A and the decimal carry in C.", "quantifier": "all pairs of two-digit numbers and carries, all states", "why_tests_cant": "Composition of two instructions for all operands and states.", "anchors": ["src/sims/i8048.src/arith.cc:CL2::daa", "src/sims/i8048.src/arith.cc:cl_i8020::add"]}
{"id": "C114", "title": "MCS-48: ports", "statement": "IN reads a pin as 1 only when its latch is 1 and nothing outside pulls it down; ORL and ANL change the latches, whatever is at the pins; the other port does not change; the ports of the expander are four bits each and independent, and using them leaves the upper half of port 2 as it is.", "quantifier": "all states of latches and pins", "why_tests_cant": "All states.", "anchors": ["src/sims/i8048.src/port.cc", "src/sims/i8048.src/i8048.cc:cl_i8048::ORLP1I8", "src/sims/i8048.src/arith.cc:CL2::orld"]}
{"id": "C115", "title": "MCS-48: register banks", "statement": "SEL RB0/RB1 selects the bank without changing data memory; writing a register changes this register of the selected bank and nothing else.", "quantifier": "all states, all registers and instructions writing a register", "why_tests_cant": "All states.", "anchors": ["src/sims/i8048.src/i8020cl.h", "src/sims/i8048.src/i8048.cc:cl_flag48_op::write"]}
{"id": "C116", "title": "MCS-48: disassembly", "statement": "The text shown for an instruction is its assembly language, the length is the number of its bytes (so that a listing shows the instructions executed one after the other), and CALL is known to be a call.", "quantifier": "all instructions with all operands at all addresses", "why_tests_cant": "All instructions, operands and addresses.", "anchors": ["src/sims/i8048.src/i8020.cc:cl_i8020::disassc", "src/sims/i8048.src/i8020.cc:cl_i8020::inst_length", "src/sims/i8048.src/decode.h"]}
{"id": "C117", "title": "AVR: programs", "statement": "Executing a program of any length on the AVR gives the registers, SREG, data memory, program counter and sleep state that the AVR instruction set manual says, for every instruction; a word that is no instruction stops the simulation and changes nothing.", "quantifier": "all programs, all states, any number of instructions", "why_tests_cant": "All programs and states.", "anchors": ["src/sims/avr.src/avr.cc:cl_avr::exec_inst", "src/sims/avr.src/arith_inst.cc", "src/sims/avr.src/logic_inst.cc", "src/sims/avr.src/bit_inst.cc", "src/sims/avr.src/move_inst.cc", "src/sims/avr.src/jump_inst.cc", "src/sims/avr.src/inst.cc"]}
{"id": "C118", "title": "AVR: stack", "statement": "POP after PUSH gives the value pushed and the stack pointer back; after RCALL, ICALL or CALL, whatever the subroutine does, if it keeps the stack, RET and RETI return behind the call with the stack pointer it had.", "quantifier": "all registers, values and stack positions, all subroutines", "why_tests_cant": "All subroutines and states.", "anchors": ["src/sims/avr.src/avr.cc:cl_avr::push_data", "src/sims/avr.src/avr.cc:cl_avr::push_addr", "src/sims/avr.src/avr.cc:cl_avr::pop_data", "src/sims/avr.src/avr.cc:cl_avr::pop_addr", "src/sims/avr.src/jump_inst.cc:cl_avr::rcall_k", "src/sims/avr.src/jump_inst.cc:cl_avr::ret"]}
{"id": "C119", "title": "AVR: addition of numbers of any size", "statement": "ADD of the lowest bytes followed by ADC of the others adds two numbers of any number of bytes: the result registers and the carry flag hold the exact sum, other registers do not change.", "quantifier": "all numbers of bytes, all disjoint choices of registers, all values", "why_tests_cant": "Any number of bytes and all values; composition of instructions.", "anchors": ["src/sims/avr.src/arith_inst.cc:cl_avr::add_Rd_Rr", "src/sims/avr.src/arith_inst.cc:cl_avr::adc_Rd_Rr"]}
{"id": "C120", "title": "AVR: subtraction of numbers of any size", "statement": "SUB of the lowest bytes followed by SBC of the others subtracts two numbers of any number of bytes: the result registers and the carry flag hold the exact difference and borrow.", "quantifier": "all numbers of bytes, all values", "why_tests_cant": "Any number of bytes and all values.", "anchors": ["src/sims/avr.src/arith_inst.cc:cl_avr::sub_Rd_Rr", "src/sims/avr.src/arith_inst.cc:cl_avr::sbc_Rd_Rr"]}
{"id": "C121", "title": "AVR: clock cycles", "statement": "Every instruction takes the number of clock cycles of the manual, branches and skips as many as they have when taken or not.", "quantifier": "all instructions in all states", "why_tests_cant": "All states.", "anchors": ["src/sims/avr.src/avr.cc:cl_avr::exec_inst", "src/sims/avr.src/jump_inst.cc", "src/sims/avr.src/move_inst.cc"]}
{"id": "C122", "title": "AVR: skips", "statement": "CPSE, SBRC, SBRS, SBIC and SBIS skip exactly the next instruction, of one or of two words, when their condition holds, and nothing otherwise; nothing else changes.", "quantifier": "all states, all next instructions, all addresses", "why_tests_cant": "All next instructions and states.", "anchors": ["src/sims/avr.src/jump_inst.cc:cl_avr::cpse_Rd_Rr", "src/sims/avr.src/jump_inst.cc:cl_avr::sbrc_Rr_b", "src/sims/avr.src/jump_inst.cc:cl_avr::sbrs_Rr_b", "src/sims/avr.src/jump_inst.cc:cl_avr::sbic_P_b", "src/sims/avr.src/jump_inst.cc:cl_avr::sbis_P_b"]}
{"id": "C123", "title": "AVR: disassembly", "statement": "The text shown for an instruction is its assembly language with its registers and the address it jumps to, the length is the number of its words, and calls are known as calls.", "quantifier": "all instructions with all operands at all addresses", "why_tests_cant": "All instructions, operands and addresses.", "anchors": ["src/sims/avr.src/avr.cc:cl_avr::disass", "src/sims/avr.src/glob.cc:disass_avr", "src/core/sim.src/uc.cc:cl_uc::inst_length", "src/core/sim.src/uc.cc:cl_uc::is_call"]}
{"id": "C124", "title": "A value change dump shows what happened", "statement": "Reading the dump by the rules of the format at any time gives each watched field the value it had at that time of the simulation, and unknown while the dump was paused; pauses longer than the limit are shortened to it.", "quantifier": "all sets of watched fields, all histories of writes, passing time, pauses and restarts, all moments of them", "why_tests_cant": "A test records one run; histories, moments and fields are unbounded.", "anchors": ["src/core/sim.src/vcd.cc:cl_vcd::report", "src/core/sim.src/vcd.cc:cl_vcd_var::write", "src/core/sim.src/vcd.cc:cl_vcd::set_cmd", "src/core/sim.src/mem.cc:cl_memory_cell::write", "src/core/sim.src/mem.cc:cl_memory_cell::set"]}
{"id": "C125", "title": "Playing a dump gives the fields the values of the dump", "statement": "A dump used as input gives each of its variables, at every time, the value that the dump has before that time; a recording that is played reproduces what was recorded, whatever the memory was and however often the player is called.", "quantifier": "all recordings, all memories, all sequences of calls of the player", "why_tests_cant": "Recordings and the moments of the calls are unbounded.", "anchors": ["src/core/sim.src/vcd.cc:cl_vcd::tick", "src/core/sim.src/vcd.cc:cl_vcd::read_word", "src/core/sim.src/vcd.cc:cl_vcd::set_cmd"]}
{"id": "C126", "title": "Variables of a dump", "statement": "The fields added are the variables of the dump, each once, with an identifier of its own that is a printable character; what was added can be deleted by the same words, and nothing else is deleted; nothing is added to a dump that was started.", "quantifier": "all sequences of add and delete commands", "why_tests_cant": "Sequences of commands are unbounded.", "anchors": ["src/core/sim.src/vcd.cc:cl_vcd::add_var", "src/core/sim.src/vcd.cc:cl_vcd::del_var", "src/core/sim.src/vcd.cc:cl_vcd::set_cmd", "src/core/sim.src/vcdcl.h:cl_vcd::get_next_var_id"]}
{"id": "C127", "title": "P1516: arithmetic and flags", "statement": "Every instruction of the ALU gives the destination the value and S, C, Z and O the values that its name stands for, changes nothing else and takes one clock.", "quantifier": "all operations, registers, operand values, flags and addresses", "why_tests_cant": "All values.", "anchors": ["src/sims/p1516.src/p1516.cc:cl_p1516::inst_alu", "src/sims/p1516.src/p1516.cc:cl_p1516::inst_ad", "src/sims/p1516.src/p1516.cc:cl_p1516::exec_inst"]}
{"id": "C128", "title": "P2223: arithmetic and flags", "statement": "Every ALU instruction of one operand, of two registers, and of a register and an immediate, gives the register the value and the flags the values that its name stands for, changes nothing else and takes four clocks; comparisons and tests change flags only.", "quantifier": "all operations, registers, operand values, immediates, flags, conditions and addresses", "why_tests_cant": "All values.", "anchors": ["src/sims/p1516.src/p2223.cc:cl_p2223::inst_alu", "src/sims/p1516.src/p2223.cc:cl_p2223::inst_alu_1op", "src/sims/p1516.src/p1516.cc:cl_p1516::inst_ad"]}
{"id": "C129", "title": "P2223: comparing and branching", "statement": "A conditional jump after a comparison is taken exactly when the two numbers compare as the condition says: unsigned for CS, CC, HI, LS, signed for GE, LT, GT, LE.", "quantifier": "all pairs of numbers, all conditions, registers and immediates", "why_tests_cant": "2^64 pairs of numbers.", "anchors": ["src/sims/p1516.src/p2223.cc:cl_p2223::cond", "src/sims/p1516.src/p2223.cc:cl_p2223::inst_alu", "src/sims/p1516.src/p1516.cc:cl_p1516::inst_ad"]}
{"id": "C130", "title": "P1516, P2223: an instruction whose condition is false does nothing", "statement": "An instruction whose condition is not met changes no register, flag or memory; execution goes on with the next instruction, and the clocks are counted.", "quantifier": "all instruction words with all conditions in all states", "why_tests_cant": "All words and states.", "anchors": ["src/sims/p1516.src/p1516.cc:cl_p1516::cond", "src/sims/p1516.src/p1516.cc:cl_p1516::exec_inst", "src/sims/p1516.src/p2223.cc:cl_p2223::cond", "src/sims/p1516.src/p2223.cc:cl_p2223::exec_inst"]}
{"id": "C131", "title": "P1516, P2223: calls and returns", "statement": "A call goes to its target (absolute, or register plus signed offset) with the address of the next instruction in R14; a return with R14 unchanged comes back there, whatever the subroutine did.", "quantifier": "all targets, all subroutines that keep R14", "why_tests_cant": "Subroutines are arbitrary.", "anchors": ["src/sims/p1516.src/p1516.cc:cl_p1516::exec_inst", "src/sims/p1516.src/p2223.cc:cl_p2223::inst_call", "src/sims/p1516.src/p2223.cc:cl_p2223::inst_alu"]}
{"id": "C132", "title": "P1516, P2223: loads, stores, constants and stacks", "statement": "Loads and stores access the word at the address that registers, offset and index mode give, and nothing else; the index register is changed as the mode says; the two halves of a constant make the constant; what was pushed is popped, and the stack pointer is restored, for every setting of the flags U and P.", "quantifier": "all registers, addresses in the memory, offsets, modes, flags, values, and all programs between push and pop that keep the stack", "why_tests_cant": "All states and programs between.", "anchors": ["src/sims/p1516.src/p1516.cc:cl_p1516::exec_inst", "src/sims/p1516.src/p2223.cc:cl_p2223::inst_mem", "src/sims/p1516.src/p2223.cc:cl_p2223::inst_ext"]}
{"id": "C133", "title": "P2223: bytes of words", "statement": "GETB, GETBZ and GETBS give the selected byte of a register (others kept, zero or sign extended), PUTB replaces the selected byte and no other; the byte is selected by the instruction or by a register.", "quantifier": "all registers, values and byte numbers", "why_tests_cant": "All values.", "anchors": ["src/sims/p1516.src/p2223.cc:cl_p2223::inst_ext"]}
{"id": "C134", "title": "P1516, P2223: the disassembler says what is executed", "statement": "The line shown for an instruction word is the instruction that is executed, with its condition, registers and numbers.", "quantifier": "all 2^32 instruction words in all states", "why_tests_cant": "All words and states.", "anchors": ["src/sims/p1516.src/glob.cc:disass_p1516", "src/sims/p1516.src/glob.cc:disass_p2223", "src/sims/p1516.src/p1516.cc:cl_p1516::disassc", "src/sims/p1516.src/p2223.cc:cl_p2223::disassc", "src/sims/p1516.src/p1516.cc:cl_p1516::exec_inst", "src/sims/p1516.src/p2223.cc:cl_p2223::exec_inst"]}
{"id": "C135", "title": "P1516, P2223: arithmetic of several words", "statement": "Chains of ADDC (ADC) and SBB add and subtract numbers of any number of words, with C as the highest digit and as the borrow.", "quantifier": "all numbers of words, all values", "why_tests_cant": "The number of words is unbounded.", "anchors": ["src/sims/p1516.src/p1516.cc:cl_p1516::inst_alu", "src/sims/p1516.src/p1516.cc:cl_p1516::inst_ad", "src/sims/p1516.src/p2223.cc:cl_p2223::inst_alu"]}
{"id": "C136", "title": "P1516, P2223: PC shows the instruction that is executed next", "statement": "At all times the next step executes the instruction at PC: after reset, after PC was set, after an instruction, an invalid instruction or a breakpoint; at a breakpoint nothing was executed and no clocks were counted.", "quantifier": "all states and instructions, breakpoints anywhere", "why_tests_cant": "All states.", "anchors": ["src/sims/p1516.src/p1516.cc:cl_p1516::set_PC", "src/sims/p1516.src/p1516.cc:cl_p1516::reset", "src/sims/p1516.src/p1516.cc:cl_p1516::exec_inst", "src/sims/p1516.src/p2223.cc:cl_p2223::exec_inst", "src/core/sim.src/uc.cc:cl_uc::do_inst"]}
{"id": "C137", "title": "P1516, P2223: rotations are inverse", "statement": "ROL and then ROR, or the other way round, give the register and C back.", "quantifier": "all values of the register and of C", "why_tests_cant": "2^33 values.", "anchors": ["src/sims/p1516.src/p1516.cc:cl_p1516::inst_alu", "src/sims/p1516.src/p2223.cc:cl_p2223::inst_alu_1op"]}
{"id": "C138", "title": "PADAUK: arithmetic and flags", "statement": "add, sub, addc, subc, inc, dec, nadd and comp, in all their forms and on PDK13, PDK14 and PDK15, give the destination the sum or difference and Z, C, AC and OV the values of that sum or difference, change nothing else and take one cycle.", "quantifier": "all instruction words of these instructions, all operand values, flags and addresses", "why_tests_cant": "All values, on three instruction sets.", "anchors": ["src/sims/pdk.src/inst.cc:cl_fpp::add_to", "src/sims/pdk.src/inst.cc:cl_fpp::sub_to", "src/sims/pdk.src/pdk13.cc:cl_fpp13::execute", "src/sims/pdk.src/pdk14.cc:cl_fpp14::execute", "src/sims/pdk.src/pdk15.cc:cl_fpp15::execute"]}
{"id": "C139", "title": "PADAUK: arithmetic of several bytes", "statement": "A program of mov a,m / addc m,a (subc m,a) over successive bytes adds or subtracts numbers of any length in memory, with C as the carry in and out, and changes nothing else but A and the flags.", "quantifier": "all lengths, all numbers, all places in memory that do not overlap", "why_tests_cant": "The length is unbounded.", "anchors": ["src/sims/pdk.src/inst.cc:cl_fpp::add_to", "src/sims/pdk.src/inst.cc:cl_fpp::sub_to", "src/sims/pdk.src/pdk13.cc:cl_fpp13::execute", "src/sims/pdk.src/pdk14.cc:cl_fpp14::execute", "src/sims/pdk.src/pdk15.cc:cl_fpp15::execute"]}
{"id": "C140", "title": "PADAUK: logic, shifts, moves, bits, io registers, multiplication", "statement": "Every such instruction does to A, memory, io register and flags what its name stands for, and nothing else; an io register gives back what was written to it; mul gives the 16 bit product; the T16 counter goes to memory and back unchanged.", "quantifier": "all instruction words, values and addresses", "why_tests_cant": "All values, on three instruction sets.", "anchors": ["src/sims/pdk.src/inst.cc:cl_fpp::sub_to", "src/sims/pdk.src/pdk.cc:cl_fpp::exec_inst", "src/sims/pdk.src/pdk13.cc:cl_fpp13::execute", "src/sims/pdk.src/pdk14.cc:cl_fpp14::execute", "src/sims/pdk.src/pdk15.cc:cl_fpp15::execute"]}
{"id": "C141", "title": "PADAUK: calls, returns and the stack", "statement": "A subroutine comes back to the instruction after its call with SP as before, popaf gives back what pushaf saved, to any depth of nesting.", "quantifier": "all programs that are balanced, all depths", "why_tests_cant": "The depth and the programs are unbounded.", "anchors": ["src/sims/pdk.src/pdk13.cc:cl_fpp13::execute", "src/sims/pdk.src/pdk14.cc:cl_fpp14::execute", "src/sims/pdk.src/pdk15.cc:cl_fpp15::execute"]}
{"id": "C142", "title": "PADAUK: skips", "statement": "t0sn, t1sn, ceqsn, cneqsn, izsn and dzsn skip exactly the next instruction, and exactly when their condition holds.", "quantifier": "all such instruction words, all values, all places in the program memory", "why_tests_cant": "All values, on three instruction sets.", "anchors": ["src/sims/pdk.src/pdk13.cc:cl_fpp13::execute", "src/sims/pdk.src/pdk14.cc:cl_fpp14::execute", "src/sims/pdk.src/pdk15.cc:cl_fpp15::execute"]}
{"id": "C143", "title": "PADAUK: jumps, cycles, invalid words", "statement": "goto and pcadd go to their target; each instruction takes the cycles of the data sheet (two for goto, call, ret, a taken skip, the indirect moves); a word that is no instruction is refused and changes nothing but PC.", "quantifier": "all instruction words in all states", "why_tests_cant": "All words and states.", "anchors": ["src/sims/pdk.src/pdk.cc:cl_fpp::exec_inst", "src/sims/pdk.src/pdk13.cc:cl_fpp13::execute", "src/sims/pdk.src/pdk14.cc:cl_fpp14::execute", "src/sims/pdk.src/pdk15.cc:cl_fpp15::execute"]}
{"id": "C144", "title": "PADAUK: the processors are private", "statement": "A, F, SP and PC of a processor (FPP) are changed by its own instructions only; a processor that is not enabled does not run.", "quantifier": "all numbers of processors, all programs", "why_tests_cant": "All interleavings of the processors.", "anchors": ["src/sims/pdk.src/pdk.cc:cl_pdk::exec_inst", "src/sims/pdk.src/pdk.cc:cl_pdk::act"]}
{"id": "C145", "title": "PADAUK: the enabled processors take turns", "statement": "The enabled processors execute in turn, one instruction each; every enabled one gets its turn again and again; choosing the next one ends.", "quantifier": "all numbers of processors, all sets of enabled ones, runs of any length", "why_tests_cant": "Runs are unbounded.", "anchors": ["src/sims/pdk.src/pdk.cc:cl_pdk::exec_inst", "src/sims/pdk.src/pdk.cc:cl_pdk::act"]}
{"id": "C146", "title": "PADAUK: stopped until reset", "statement": "After stopsys or stopexe no processor executes anything until reset, and reset starts the chip.", "quantifier": "all states and runs of any length", "why_tests_cant": "Runs are unbounded.", "anchors": ["src/sims/pdk.src/pdk.cc:cl_pdk::exec_inst", "src/sims/pdk.src/pdk.cc:cl_pdk::reset", "src/sims/pdk.src/pdk13.cc:cl_fpp13::execute", "src/sims/pdk.src/pdk14.cc:cl_fpp14::execute", "src/sims/pdk.src/pdk15.cc:cl_fpp15::execute"]}
{"id": "C147", "title": "PADAUK: reset", "statement": "After reset the chip is in the state of the data sheet whatever was before: PC of every processor, A, F, SP, FPPEN, CLKMD; the instruction reset does the same.", "quantifier": "all states", "why_tests_cant": "All histories before the reset.", "anchors": ["src/sims/pdk.src/pdk.cc:cl_pdk::reset", "src/sims/pdk.src/pdk.cc:cl_fpp::reset", "src/sims/pdk.src/osc.cc:cl_osc::reset", "src/sims/pdk.src/wdt.cc:cl_wdt::reset"]}
{"id": "C148", "title": "PADAUK: the disassembler says what is executed", "statement": "The line shown for an instruction word is the instruction that is executed, with its registers and numbers.", "quantifier": "all instruction words of PDK13, PDK14 and PDK15", "why_tests_cant": "All words.", "anchors": ["src/sims/pdk.src/glob.cc:disass_pdk_13", "src/sims/pdk.src/glob.cc:disass_pdk_14", "src/sims/pdk.src/glob.cc:disass_pdk_15", "src/sims/pdk.src/pdk.cc:cl_fpp::disassc", "src/sims/pdk.src/pdk13.cc:cl_fpp13::execute", "src/sims/pdk.src/pdk14.cc:cl_fpp14::execute", "src/sims/pdk.src/pdk15.cc:cl_fpp15::execute"]}
{"id": "C149", "title": "PADAUK: the timer T16", "statement": "T16 counts the selected clock divided by the selected number, however the instructions cut up the time, and requests its interrupt exactly when the counter passes the selected edge of the selected bit.", "quantifier": "all settings of T16M and INTEGS, all sequences of instructions of any duration", "why_tests_cant": "Histories of the clock are unbounded.", "anchors": ["src/sims/pdk.src/t16.cc:cl_t16::tick", "src/sims/pdk.src/t16.cc:cl_t16::recalc", "src/sims/pdk.src/t16.cc:cl_t16::set_div", "src/sims/pdk.src/t16.cc:cl_t16::write", "src/sims/pdk.src/t16.cc:cl_t16::reset"]}
{"id": "C150", "title": "PADAUK: the watchdog", "statement": "The enabled watchdog resets the chip exactly when more than the selected number of ILRC periods have gone by since the latest wdreset; a disabled one never does; it is enabled after a reset.", "quantifier": "all settings, all histories of wdreset, writes of CLKMD and time", "why_tests_cant": "Histories are unbounded.", "anchors": ["src/sims/pdk.src/wdt.cc:cl_wdt::tick", "src/sims/pdk.src/wdt.cc:cl_wdt::recalc", "src/sims/pdk.src/wdt.cc:cl_wdt::write", "src/sims/pdk.src/wdt.cc:cl_wdt::reset"]}
{"id": "C151", "title": "MISC16: programs", "statement": "A program of any length does to A, C, PC and memory what the table of sources and destinations of the MISC16 says of its moves, four clocks each; after reset it starts at 16.", "quantifier": "all states, all programs that stay within the table, any number of instructions", "why_tests_cant": "65536 by 65536 instruction words, all states, and programs of any length.", "anchors": ["src/sims/oisc.src/misc16.cc:cl_misc16::read", "src/sims/oisc.src/misc16.cc:cl_misc16::write", "src/sims/oisc.src/misc16.cc:cl_misc16::add", "src/sims/oisc.src/misc16.cc:cl_misc16::sub", "src/sims/oisc.src/misc16.cc:cl_misc16::shift", "src/sims/oisc.src/misc16.cc:cl_misc16::reset", "src/sims/oisc.src/oisc.cc:cl_oisc::exec_inst", "src/sims/oisc.src/oisc.cc:cl_op_pass", "src/core/sim.src/mem.cc:cl_memory_cell::read", "src/core/sim.src/mem.cc:cl_memory_cell::write"]}
{"id": "C152", "title": "MISC16: long shifts", "statement": "A number of any number of words is shifted right through the carry by one pair of moves for each word; nothing else in memory changes.", "quantifier": "all numbers of words, all values, all places of the program and the number", "why_tests_cant": "The number of words is unbounded but for memory.", "anchors": ["src/sims/oisc.src/misc16.cc:cl_misc16::shift", "src/sims/oisc.src/oisc.cc:cl_oisc::exec_inst", "src/sims/oisc.src/oisc.cc:cl_op_pass", "src/core/sim.src/mem.cc:cl_memory_cell::read", "src/core/sim.src/mem.cc:cl_memory_cell::write"]}
{"id": "C153", "title": "MISC16: comparisons", "statement": "After A = x, A = A - y, the three conditional jumps are taken exactly if x < y (C), x = y (zero), or the difference mod 65536 is negative; otherwise the next instruction follows.", "quantifier": "all x and y, all places of the program", "why_tests_cant": "2^32 pairs of words.", "anchors": ["src/sims/oisc.src/misc16.cc:cl_misc16::sub", "src/sims/oisc.src/misc16.cc:cl_misc16::write", "src/sims/oisc.src/oisc.cc:cl_oisc::exec_inst", "src/sims/oisc.src/oisc.cc:cl_op_pass", "src/core/sim.src/mem.cc:cl_memory_cell::read", "src/core/sim.src/mem.cc:cl_memory_cell::write"]}
{"id": "C154", "title": "MISC16: subroutines", "statement": "Moving PC+4 to a word r and a label to PC calls; moving r to PC, after a subroutine of any length that left r alone, continues after the call.", "quantifier": "all places, subroutines of any length and content that keep r", "why_tests_cant": "The subroutine is any program.", "anchors": ["src/sims/oisc.src/misc16.cc:cl_misc16::read", "src/sims/oisc.src/misc16.cc:cl_misc16::write", "src/sims/oisc.src/oisc.cc:cl_oisc::exec_inst", "src/sims/oisc.src/oisc.cc:cl_op_pass", "src/core/sim.src/mem.cc:cl_memory_cell::read", "src/core/sim.src/mem.cc:cl_memory_cell::write"]}
{"id": "C155", "title": "MISC16: the text of an instruction", "statement": "The disassembled line names the destination and the source that the instruction uses when it is executed, a memory operand by its address.", "quantifier": "all instruction words of the table", "why_tests_cant": "All pairs of words.", "anchors": ["src/sims/oisc.src/misc16.cc:cl_misc16::dis_src", "src/sims/oisc.src/misc16.cc:cl_misc16::dis_dst", "src/sims/oisc.src/oisc.cc:cl_oisc::disassc"]}
{"id": "C156", "title": "Extended MISC16: programs", "statement": "A program of any length does to A, C, P, PC and memory what the table of the extended MISC16 says, with the pointer moves of [P++], [--P] and [A++], four clocks each.", "quantifier": "all states, all programs that stay within the table, any number of instructions", "why_tests_cant": "All instruction words, all states, and programs of any length.", "anchors": ["src/sims/oisc.src/em.cc:cl_em::read", "src/sims/oisc.src/em.cc:cl_em::write", "src/sims/oisc.src/oisc.cc:cl_oisc::exec_inst", "src/sims/oisc.src/oisc.cc:cl_op_pass", "src/core/sim.src/mem.cc:cl_memory_cell::read", "src/core/sim.src/mem.cc:cl_memory_cell::write"]}
{"id": "C157", "title": "Extended MISC16: the stack", "statement": "n words moved to [--P] come back from [P++] in the opposite order; P is then where it was, and nothing but the n words below P and the targets has changed.", "quantifier": "all n, all values, all places of the program, the words and the stack", "why_tests_cant": "n is unbounded but for memory.", "anchors": ["src/sims/oisc.src/em.cc:cl_em::read", "src/sims/oisc.src/em.cc:cl_em::write", "src/sims/oisc.src/oisc.cc:cl_oisc::exec_inst", "src/sims/oisc.src/oisc.cc:cl_op_pass", "src/core/sim.src/mem.cc:cl_memory_cell::read", "src/core/sim.src/mem.cc:cl_memory_cell::write"]}
{"id": "C158", "title": "Extended MISC16: looking does not change the machine", "statement": "Showing the registers or the text of an instruction leaves A, P and memory as they are.", "quantifier": "all states and instructions", "why_tests_cant": "All states and all instruction words.", "anchors": ["src/sims/oisc.src/em.cc:cl_em::print_regs", "src/sims/oisc.src/em.cc:cl_em::dis_comment", "src/sims/oisc.src/misc16.cc:cl_misc16::dis_comment", "src/sims/oisc.src/oisc.cc:cl_oisc::print_acc"]}
{"id": "C159", "title": "Ultimate RISC: programs", "statement": "An instruction does to the accumulator, the flags N, Z, O, C, PC and memory what the table of the Ultimate RISC says, whether or not somebody has looked at the registers.", "quantifier": "all states, all instruction words, all programs, any number of displays of the registers before", "why_tests_cant": "All states and words, and histories of programs and displays.", "anchors": ["src/sims/oisc.src/urisc.cc:cl_urisc::print_regs", "src/sims/oisc.src/urisc.cc:cl_urisc::read", "src/sims/oisc.src/urisc.cc:cl_urisc::write", "src/sims/oisc.src/urisc.cc:cl_urisc::add", "src/sims/oisc.src/urisc.cc:cl_urisc::init_alu", "src/sims/oisc.src/oisc.cc:cl_oisc::exec_inst", "src/sims/oisc.src/oisc.cc:cl_op_pass", "src/core/sim.src/mem.cc:cl_memory_cell::read", "src/core/sim.src/mem.cc:cl_memory_cell::write"]}
{"id": "C160", "title": "PicoBlaze: programs", "statement": "A program for KCPSM3 or KCPSM6 of any length does to the registers, the flags, the scratch pad, the stack of return addresses, the program counter and the ports what the user guide of the processor says, one step for each instruction.", "quantifier": "all states, all programs of the instructions of the guides, all inputs, any number of instructions", "why_tests_cant": "All states and operands, inputs that change, programs of any length.", "anchors": ["src/sims/pblaze.src/pblaze.cc:cl_pblaze::exec_inst", "src/sims/pblaze.src/inst.cc:cl_pblaze::inst_add", "src/sims/pblaze.src/inst.cc:cl_pblaze::inst_call", "src/sims/pblaze.src/inst.cc:cl_pblaze::inst_return", "src/sims/pblaze.src/stack.cc:cl_pblaze::stack_push", "src/sims/pblaze.src/stack.cc:cl_pblaze::stack_pop", "src/sims/pblaze.src/glob.cc:disass_pblaze6", "src/sims/pblaze.src/glob.cc:disass_pblaze3"]}
{"id": "C161", "title": "PicoBlaze: interrupts", "statement": "A request that comes while interrupts are enabled saves the flags and the address of the next instruction, disables interrupts and goes to 0x3FF; RETURNI, after a routine of any length that left what was saved alone, goes back to that address with those flags. Without a request, or while they are disabled, nothing happens.", "quantifier": "all states, all addresses, all routines", "why_tests_cant": "The interrupt can come anywhere and the routine is any program.", "anchors": ["src/sims/pblaze.src/pblaze.cc:cl_pblaze::do_interrupt", "src/sims/pblaze.src/inst.cc:cl_pblaze::inst_returni", "src/sims/pblaze.src/stack.cc:cl_pblaze::stack_push"]}
{"id": "C162", "title": "PicoBlaze: the text of an instruction", "statement": "The disassembled line of a word of a program names the instruction that the processor executes, with its condition, its registers and its numbers.", "quantifier": "all instructions of KCPSM3 and KCPSM6 with all operands", "why_tests_cant": "All instructions and operands.", "anchors": ["src/sims/pblaze.src/pblaze.cc:cl_pblaze::disass", "src/sims/pblaze.src/pblaze.cc:cl_pblaze::get_disasm_info", "src/sims/pblaze.src/glob.cc:disass_pblaze6", "src/sims/pblaze.src/glob.cc:disass_pblaze3"]}
