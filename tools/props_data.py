# ---------------------------------------------------------------- memory
p("Write then read returns the written value truncated to the memory width",
  "For a location that is decoded to a chip, is not read-only and has no attached operators, writing v through the address space and then reading it back returns v modulo 2^width (and the value returned by the write itself is that same value); for 1-bit spaces it returns 1 iff v is non-zero.",
  "every width 1..32, every chip storage size (1, 2 or 4 byte elements at least as wide as the cell), every chip contents, every address and every 32-bit value",
  "2^32 values x 32 widths x all prior contents; tests sample a few bytes.",
  [M+":cl_memory_cell::write", M+":cl_cell8::d", M+":cl_cell16::d", M+":cl_cell32::d", M+":cl_bit_cell8::d", M+":cl_address_space::write"])
p("Writes do not disturb other locations",
  "A write through an address space changes the value read at no address (of any address space) that is decoded to a different chip element; in a bit space, writing one bit changes no other bit of the same element.",
  "all pairs of addresses, all address spaces, all chips, all values, all mappings",
  "It is a frame property over every pair of locations and mapping.",
  [M+":cl_memory_cell::write", M+":cl_memory_chip::get_slot", M+":cl_bit_cell8::d"])
p("Two addresses decoded to the same chip element always read the same",
  "If two addresses (of one or two address spaces of equal cell width) are decoded to the same element of the same chip, then after any sequence of writes anywhere, reading either gives the same value.",
  "all mappings, all histories of writes",
  "Histories are unbounded.",
  [M+":cl_memory_cell::decode", M+":cl_memory_cell::read"])
p("Read-only locations keep their content, download overrides it",
  "While the read-only flag of a location is set, no sequence of write or set operations at that location changes what it reads; download stores the truncated value regardless of the flag.",
  "all histories of writes and sets at the location, all values",
  "Unbounded histories.",
  [M+":cl_memory_cell::write", M+":cl_memory_cell::set", M+":cl_memory_cell::download"])
p("Out-of-range accesses are reported and corrupt no decoded memory",
  "Accessing an address outside [start, start+size) of an address space reports exactly one invalid-address error and changes no decoded location of any address space; an in-range access reports no error. No address, however large, wraps into the space.",
  "all 32-bit addresses, all spaces whose start+size fits in 32 bits, all states",
  "All 2^32 addresses including wrap-around ones.",
  [M+":cl_address_space::read", M+":cl_address_space::write", M+":cl_memory::err_inv_addr", M+":cl_dummy_cell::write"])
p("A successful decoder activation maps exactly the requested area",
  "When activating an address decoder over [b,e] onto a chip from element c reports success, then afterwards every address a in [b,e] whose element c+(a-b) exists in the chip reads and writes that element, and no address outside [b,e] changes its mapping.",
  "every non-empty space that ends below 2^32, chips of fewer than 2^31 elements, every area, every previous history of decoder creations (memory create addressdecoder command)",
  "All geometries of overlap between old and new decoders; off-by-one errors hide at boundaries.",
  [M+":cl_address_decoder::activate", M+":cl_address_space::undecode_area", M+":cl_address_space::decode_cell"])
p("The decoder list always tells the truth about the mapping",
  "After any history of adding and activating address decoders, the decoders in the list are pairwise disjoint, and an address is decoded to chip element k of chip m iff the decoder reported for that address maps it to element k of m; addresses without decoder are undecoded.",
  "every finite history of decoder creations (memory create addressdecoder command) with arbitrary, possibly overlapping areas, in every non-empty space that ends below 2^32, chips of fewer than 2^31 elements",
  "Split/shrink/remove cases compose over unbounded histories.",
  [M+":cl_address_space::undecode_area", M+":cl_address_decoder::split", M+":cl_address_decoder::shrink_out_of", M+":cl_address_space::get_decoder_of"])
p("Bank switching follows the selector register",
  "With all banks of a banker defined, after any sequence of writes to the selector register and to other memory, the banked area is decoded to the bank number formed by the masked, shifted selector value; and the bank index used never leaves the bank table.",
  "all selector masks, all write histories, all bank definitions",
  "Unbounded write histories, all masks.",
  [M+":cl_banker::init", M+":cl_banker::actual_bank", M+":cl_banker::activate", M+":cl_bank_switcher_operator::write", M+":cl_banker::add_bank"])
p("Bit banding maps the n-th bit address to the right bit",
  "After activating a bander with b bits per element and distance d from element c, address begin+n names bit (n mod b) of element c + d*(n div b): reading returns that bit, writing sets or clears only that bit.",
  "all n, b>0, d, element contents",
  "Unbounded n and all parameters.",
  [M+":cl_bander::activate", M+":cl_bit_cell8::d"])
p("Chip slots and element numbers are inverse",
  "For every element of a chip, the address of the element maps back to its element number (is_slot after get_slot).",
  "all chips (1, 2, 4 byte elements), all element numbers",
  "All element numbers and widths.",
  [M+":cl_memory_chip::get_slot", M+":cl_memory_chip::is_slot"])
p("Address normalisation always yields a valid address",
  "inc_address and validate_address return an address inside the memory that is congruent (modulo the size) to the requested one.",
  "all addresses, starts, sizes, increments",
  "Off-by-one at a single address.",
  [M+":cl_memory::inc_address", M+":cl_memory::validate_address", M+":cl_memory::valid_address"])
p("Memory search finds the first occurrence",
  "search_next returns true with address a iff the pattern (case-insensitively if asked) occurs at a, a is at or after the start address, the whole pattern fits in memory, and no earlier such occurrence exists; it returns false iff there is none.",
  "all memories, patterns, start addresses",
  "All contents and lengths.",
  [M+":cl_memory::search_next"])
p("Operators on a cell are observers in a fixed order",
  "Attaching breakpoint or peripheral operators to a cell: write passes the value through the operators in attachment order and stores the final value; adding and then removing an operator leaves the cell's behaviour as before; removing one operator never removes or reorders the others.",
  "all operator chains, all values, all add/remove histories",
  "Unbounded chains and histories.",
  [M+":cl_memory_cell::write", M+":cl_memory_cell::append_operator", M+":cl_memory_cell::prepend_operator", M+":cl_memory_cell::remove_operator", M+":cl_memory_cell::del_operator"])
# ---------------------------------------------------------------- lists
p("Sorted lists stay sorted and search is exact",
  "After any history of additions and removals a sorted list is sorted by key; search reports found iff some item has the key; with duplicates allowed the returned index is the first such item, otherwise (not found) the insertion point; without duplicates no two items have equal keys.",
  "all lists, all total orders on keys, all histories",
  "Binary search boundary errors only show for particular lengths/positions.",
  [P+":cl_sorted_list::search", P+":cl_sorted_list::add", P+":cl_sorted_list::index_of"])
p("Lists behave as sequences and stacks",
  "add/add_at/disconn_at/put_at/push/pop/top behave like the corresponding operations on a finite sequence: pop returns the last pushed remaining item, disconn removes exactly one occurrence, indices outside the list are rejected, for any growth (limit/delta) policy with positive delta.",
  "all operation histories, all limits and deltas",
  "Unbounded histories; capacity growth at every boundary.",
  [P+":cl_list::add_at", P+":cl_list::disconn_at", P+":cl_list::push", P+":cl_list::pop", P+":cl_list::set_limit"])
# ---------------------------------------------------------------- variables
p("Variables form a map from names to definitions",
  "After any history of adding and deleting variables, looking up a name finds a variable iff the name was added after its last deletion (and not superseded as an analyzer label), and then yields the most recently added definition; no two variables share a name.",
  "every history of var add/del",
  "Unbounded histories and names.",
  [V+":cl_var_list::add", V+":cl_var_list::del", V+":cl_var_by_name_list::compare"])
p("Address index and name index agree",
  "After any history, the variables found through an address (and bit range) are exactly the memory variables present in the name index for that memory, address and bit range, and searching by address returns the first one.",
  "every history of var add/del with addresses below 2^31",
  "Two indices updated by separate code over unbounded histories.",
  [V+":cl_var_list::add", V+":cl_var_list::del", V+":cl_var_by_addr_list::search"])
p("Label column is wide enough",
  "The reported longest variable name length is the length of the longest name currently defined.",
  "every history of add/del/replace",
  "Cached value invalidation over unbounded histories.",
  [V+":cl_var_list::get_max_name_len", V+":cl_var_list::add", V+":cl_var_list::del"])
# ---------------------------------------------------------------- breakpoints
p("A fetch breakpoint is set exactly where the user put one",
  "After any history of break, tbreak, clear and delete commands, execution is checked for a breakpoint at address a iff a (not yet removed) fetch breakpoint for a exists, for all a inside the code memory.",
  "every history of breakpoint commands",
  "Flag bits on cells and the list are updated separately over unbounded histories.",
  [B+":brk_coll::add_bp", B+":brk_coll::del_bp", B+":brk_coll::get_bp", U+":cl_uc::do_brk", CB+":cl_break_cmd::do_fetch"])
p("Breakpoint numbers are unique",
  "At any time no two existing breakpoints (fetch or event) have the same number, so info/delete by number address exactly one.",
  "every history of breakpoint creation and deletion",
  "Number reuse after deletions over unbounded histories.",
  [U+":cl_uc::make_new_brknr", B+":brk_coll::add_bp", U+":cl_uc::rm_brk", U+":cl_uc::brk_by_nr"])
p("Hit counts fire every n-th time",
  "A breakpoint with hit count n>=1 (and true condition) stops execution at exactly the n-th, 2n-th, 3n-th... hit; with a condition, it stops at those of them at which the condition is true.",
  "all n, all numbers of hits, all condition outcomes",
  "Unbounded number of hits.",
  [B+":cl_brk::do_hit"])
p("Deleting breakpoints removes them and terminates",
  "delete nr removes exactly the breakpoint of that number; delete without argument removes all breakpoints and terminates.",
  "all breakpoint sets, including addresses outside code memory",
  "Termination for every state.",
  [U+":cl_uc::rm_brk", U+":cl_uc::remove_all_breaks", B+":brk_coll::del_bp"])
p("Event breakpoints see every matching access and only those",
  "A read (write) event breakpoint on a location is notified exactly once for each read (write) of that location through the address space and never for accesses of other kinds or locations; notification does not alter the value read or written.",
  "all access histories, all breakpoint sets",
  "Unbounded access histories.",
  [M+":cl_memory_cell::set_brk", M+":cl_read_operator::read", M+":cl_write_operator::write"])
# ---------------------------------------------------------------- history
p("Execution history keeps the most recent instructions",
  "After any number of executed instructions the history contains, run-length compressed and in order, exactly the most recent at most 10000 runs of executed addresses since the last clear; its size and instruction count are what is listed.",
  "all execution traces, all keep/clear operations",
  "Ring-buffer wrap over unbounded traces.",
  [U+":cl_exec_hist::put", U+":cl_exec_hist::get_used", U+":cl_exec_hist::get_insts", U+":cl_exec_hist::keep"])
# ---------------------------------------------------------------- loaders
p("Intel HEX dump and load round-trip",
  "Dumping an area of 8-bit memory below 64K in Intel HEX format and loading the text into any memory reproduces exactly the dumped bytes at the same addresses and changes nothing else.",
  "all contents, areas below 0x10000, line lengths 1..32",
  "All contents, areas and alignments.",
  [M+":cl_memory::dump_i", U+":cl_uc::read_hex_file", U+":cl_uc::set_rom"])
p("Damaged HEX records never modify memory",
  "A HEX record whose checksum does not match (in particular: one data, length, address or type byte altered) changes no memory location.",
  "all records, all single byte alterations, all files",
  "All records and corruptions.",
  [U+":cl_uc::read_hex_file"])
p("HEX loading honours extended addresses and places words consistently",
  "Each data record of a well formed HEX file is placed at base+offset where base is set by the latest type-4 record; for memories wider than 8 bits little-endian words are assembled; nothing outside the addresses named by the records is modified.",
  "all well formed files, all widths",
  "Word assembly across record boundaries over unbounded files.",
  [U+":cl_uc::read_hex_file"])
p("S-record loading stores exactly the record's data",
  "A correct S1/S2/S3 record with n data bytes at address a loaded into an 8-bit memory sets locations a..a+n-1 to the data and nothing else; records with wrong checksum or too short lines change nothing.",
  "all records, all lines",
  "All contents/lengths.",
  [U+":cl_uc::read_s19_file", U+":s19", U+":h2"])
p("OMF loading stores content at the recorded offset",
  "An OMF-51 content record with offset a and data d0..dn stores d_i at a+i.",
  "all records",
  "All contents.",
  [U+":cl_uc::read_omf_file", U+":cl_omf_rec::read", U+":cl_omf_rec::pick_word"])
# ---------------------------------------------------------------- time, run control, interrupts
p("Timers count exactly the elapsed clocks",
  "After any execution, a running up (down) counter has advanced by exactly the clocks elapsed while it was running and while its class condition (any/ISR/idle/halt) held; adding or deleting one counter does not affect the others.",
  "all tick histories, all counter sets",
  "Unbounded histories; indices of the counter table.",
  [U+":cl_uc::tick", U+":cl_ticker::tick", U+":cl_uc::add_counter", U+":cl_uc::del_counter"])
p("Step n executes exactly n instructions unless something stops it",
  "Starting with a step count n>0, the simulator stops with reason 'step' after exactly n executed instructions if no instruction reports a stop; if the k-th (k<=n) does, it stops after exactly k.",
  "all n, all instruction outcomes",
  "Unbounded n.",
  [S+":cl_sim::start", S+":cl_sim::step", S+":cl_sim::stop"])
p("Interrupt nesting respects priorities",
  "After any execution history the priorities of the active interrupt levels strictly increase from the main program to the innermost handler; an interrupt source is accepted only if active, enabled, pending, and of higher priority than the current level; leaving a handler restores the previous level.",
  "all histories of requests, enables, priorities and returns",
  "Unbounded interleavings of interrupts and returns.",
  [U+":cl_uc::do_interrupt", A+"uc51.cc:cl_51core::do_interrupt", A+"uc51.cc:cl_51core::accept_it", A+"jmp.cc:instruction_32"])
# ---------------------------------------------------------------- 8051
p("8051: addition and subtraction set results and flags correctly",
  "ADD/ADDC/SUBB compute the 8-bit result modulo 256, CY = unsigned carry/borrow out of bit 7, AC = out of bit 3, OV = signed overflow, for every addressing mode.",
  "all operand values, carry inputs, addressing modes, machine states",
  "Each addressing mode is a separate hand written copy.",
  [A+"arith.cc:instruction_24", A+"arith.cc:instruction_34", A+"arith.cc:instruction_94"])
p("8051: decimal adjust yields BCD",
  "After ADD or ADDC of two packed BCD bytes, DA A leaves the packed BCD of the decimal sum modulo 100 with CY = decimal carry.",
  "all BCD pairs and carry in",
  "Flag interplay.",
  [A+"arith.cc:instruction_d4"])
p("8051: MUL and DIV",
  "MUL AB leaves the 16-bit product in B:A with OV iff it exceeds 255 and CY cleared; DIV AB leaves quotient and remainder with OV cleared, or sets OV and keeps A and B when dividing by zero; A*B recomposes.",
  "all operand values",
  "All 65536 operand pairs in every state.",
  [A+"arith.cc:instruction_a4", A+"arith.cc:instruction_84"])
p("8051: call/return and push/pop are inverse",
  "With the stack in implemented internal memory, LCALL/ACALL followed by RET (with the stack bytes unchanged) continues at the instruction after the call with the original SP; PUSH x then POP y (internal memory or a CPU register) transfers x to y and restores SP.",
  "all machine states, all SP values including wrap-around",
  "SP wrap and aliasing of stack with registers.",
  [A+"jmp.cc:inst_lcall", A+"jmp.cc:instruction_22", A+"mov.cc:instruction_c0", A+"mov.cc:instruction_d0"])
p("8051: every opcode advances PC by its listed length",
  "For each of the 256 opcodes, executing an instruction that does not branch leaves PC advanced by exactly the instruction length reported by the disassembler table.",
  "all opcodes, all machine states",
  "Decoder table and execution code are independent; all states.",
  [A+"glob.cc:disass_51", U+":cl_uc::inst_length", A+"uc51.cc:cl_51core::exec_inst"])
p("8051: parity flag tracks the accumulator",
  "After every instruction the P flag read from PSW equals the parity of ACC.",
  "all instruction sequences, all states",
  "Any instruction may modify ACC or PSW through several aliases.",
  [A+"uc51.cc", A+"arith.cc"])
p("8051: register banks and bit space alias internal memory",
  "R0..R7 are the IRAM bytes selected by PSW.RS1:RS0 after any sequence of PSW modifications; bit address b names bit b mod 8 of IRAM byte 0x20+b/8 (b<0x80) or of SFR b & 0xf8 (b>=0x80).",
  "all histories of PSW writes, all bit addresses",
  "Alias maps cached on writes over unbounded histories.",
  [A+"uc51.cc:cl_51core::decode_bits", A+"uc51.cc:cl_51core::decode_regs"])
p("8051: program counter stays in code memory",
  "After every instruction PC is a valid 16-bit code address and relative branches wrap modulo 64K.",
  "all states, displacements",
  "One single target address misbehaves.",
  [M+":cl_memory::validate_address", A+"jmp.cc:instruction_80", U+":cl_uc::fetch"])
p("8051: timer 0/1 count modulo their mode's range",
  "After n machine cycles a running timer in mode 1 (16-bit) holds (start+n) mod 65536 and has signalled overflow exactly floor((start+n)/65536) times; analogously mode 0 (13-bit), mode 2 (8-bit auto reload).",
  "all start values, all n, any partition of n into instructions",
  "Unbounded n.",
  [A+"timer0.cc", A+"timer1.cc"])
p("Memory accesses stay inside the chip's storage",
  "Reading or writing through any cell decoded to an existing element of a chip touches only bytes inside the storage allocated for that chip, also when the address space is wider than the chip's elements.",
  "all chip sizes and widths, all space widths, all elements, all values",
  "Memory safety at every boundary combination.",
  [M+":cl_memory_chip::get_slot", M+":cl_memory_chip::cl_memory_chip", M+":cl_cell32::d"])
p("Event breakpoints are transparent",
  "Setting read or write event breakpoints on a location changes neither the values the program reads and writes there nor the memory contents.",
  "all locations, all sets of event breakpoints, all values",
  "All operator combinations on a cell.",
  [M+":cl_read_operator::read", M+":cl_write_operator::write", M+":cl_memory_cell::read", M+":cl_memory_cell::set_brk"])
p("Fill sets the whole area and nothing else",
  "The fill command terminates; afterwards every writable location of the area holds the value truncated to the memory's width and every location outside keeps its content.",
  "all areas, values, memories",
  "All areas and wirings.",
  ["src/core/cmd.src/cmd_uc.cc:cl_fill_cmd", M+":cl_address_space::write"])
p("Temporary breakpoints stop once",
  "A breakpoint made by tbreak (or by run/next for their stop address) stops execution at most once: when it stops it is removed; until then it stays.",
  "all histories, fetch and event breakpoints",
  "Every history before and after the stop.",
  ["src/core/sim.src/uc.cc:do_brk", "src/core/cmd.src/cmd_bp.cc:cl_tbreak_cmd", "src/core/sim.src/uc.cc:check_events"])
p("8051: of simultaneous requests the one with the highest priority is served first",
  "When several interrupt sources may interrupt at the same moment, the accepted one has the highest priority; among equal priorities the polling order decides.",
  "all machine states, all sets of pending requests",
  "Every combination of requests, priorities and program positions.",
  [A+"uc51.cc:cl_51core::do_interrupt", A+"uc51.cc:cl_51core::priority_of"])
p("8051: timers obey their registers at all times",
  "After any history of instructions, interrupts, writes to registers or bits from outside and pin changes, each timer works in the mode, as timer or counter, gated and running exactly as TMOD, TCON, the P3 latch and the pins of port 3 say.",
  "all histories, all other peripherals",
  "Every order of writes (bytes, bits, interrupt acceptance, debugger) and pin changes.",
  [A+"timer0.cc:cl_timer0::write", A+"timer0.cc:cl_timer0::happen", A+"timer0.cc:cl_timer0::tick", A+"port.cc:cl_port"])
p("8051: counters count the events on their pin",
  "A running timer in counter mode counts each 1-to-0 transition of its pin (T0, T1) exactly once, and only transitions that come while it is enabled.",
  "all sequences of pin changes, all counts",
  "Unbounded pin histories.",
  [A+"timer0.cc:cl_timer0::happen", A+"timer0.cc:cl_timer0::do_mode1"])
p("8051: instructions take the machine cycles of the manual",
  "Every instruction advances the cycle counter by the number of machine cycles its opcode has in the manual, independent of operands and of whether a branch is taken; the counter after any run is the sum over the instructions (plus the cycle of each accepted interrupt and the cycles spent in a power saving mode).",
  "all states, all 256 opcodes, all runs",
  "All operand values and branch outcomes of all opcodes, unbounded runs.",
  [A+"jmp.cc", A+"mov.cc", A+"arith.cc", "src/core/sim.src/uc.cc:cl_uc::tick", "src/core/sim.src/uc.cc:cl_uc::exec_inst_uctab"])
p("8051: every instruction does what the manual says",
  "Executing the instruction at PC changes accumulator, registers, flags (parity apart), stack, internal, external memory, bits and PC exactly as the instruction set manual of the MCS-51 describes for that opcode and those operands, and nothing else.",
  "all machine states, all 255 defined opcodes, all operand values",
  "255 opcodes times every machine state: the operands alias registers, stack, banks and bit addresses.",
  [A+"uc51.cc:cl_51core::itab", A+"arith.cc", A+"logic.cc", A+"mov.cc", A+"jmp.cc", A+"bit.cc", A+"inc.cc"])
p("8051: programs run as on the manual's machine",
  "A program that uses memories and CPU registers computes, after any number of instructions and whatever the peripherals do meanwhile, the same PC, memories and CPU registers (parity flag included) as a machine built from the manual alone.",
  "all programs, all initial states, any number of instructions, all peripherals",
  "Unbounded executions.",
  [A+"uc51.cc:cl_51core::do_inst", A+"uc51.cc:cl_51core::do_interrupt", "src/core/sim.src/uc.cc:cl_uc::exec_inst_uctab", "src/core/sim.src/uc.cc:cl_uc::tick_hw"])
Y="src/core/cmd.src/cmdpars.y"; L="src/core/cmd.src/cmdlex.l"
p("Expressions are grouped as in C",
  "The text of an expression (conditions of breakpoints, arguments of commands, assignments) is accepted iff it is an expression of C's grammar over numbers, memories, bits and variables, and operands are grouped by C's precedences, associativity and parentheses.",
  "all expression texts, of any length and nesting",
  "Unbounded nesting of all operators.",
  [Y+":expr", Y+":assignment_expr", Y+":conditional_expr", Y+":bit"])
p("Expressions evaluate as in C",
  "The value of an expression and the assignments it makes are those of C on 64 bit integers and unsigned 32 bit objects: operators, ++ and --, compound assignment, sign extending casts; operands of && || ?: that C skips have no effect; evaluating an expression without assignments changes nothing.",
  "all expressions, all machine states",
  "All nestings of operators and all values.",
  [Y+":primary_expr", Y+":unary_expr", Y+":assignment_expr", "src/core/utils.src/app.cc:cl_app::eval"])
p("Assigning to bits changes exactly those bits",
  "x[h:l]= v and x.n= v store the low bits of v into the named bits of x, keep all other bits, and yield the bits stored.",
  "all memories, bit ranges, values",
  "Every range and value.",
  [Y+":assignment_expr", Y+":bit"])
p("Expressions are read as written",
  "The characters of an expression are split into the operators, numbers (decimal, 0x and $ hexadecimal, 0 octal, 0b binary) and names the user wrote, with or without blanks where C allows that; a number has the value of its digits.",
  "all texts, all numbers below 2^63, all names",
  "Unbounded texts and numbers.",
  [L+":uc_yy_check_id", L])
p("Unknown names in expressions are errors",
  "An expression that contains a name which is neither a memory nor a variable is refused.",
  "all texts, all sets of names",
  "Every position of the name in every text.",
  [L+":uc_yy_check_id"])
p("8051: external interrupts follow their pins",
  "A transition activated external interrupt is requested exactly when the level of its pin (pin and output latch) falls; a level activated one is requested while its pin is low and only then; accepting the interrupt clears the request flag of its own source and no other bit of TCON, and enters the handler at 0003H / 0013H. This holds after every history of instructions, register writes from outside and pin changes.",
  "all histories of instructions, interrupts, writes, pin changes; all other peripherals",
  "Unbounded interleavings of the program with the outside world.",
  [A+"interrupt.cc", A+"port.cc", A+"uc51.cc:cl_51core::do_interrupt", A+"uc51.cc:cl_51core::accept_it"])
p("8051: reset forgets the past",
  "reset puts the CPU at address 0 with its registers, register bank, priority level and cycle counter at the documented values, stops and clears timers and external interrupts, keeps the memories; what the machine does afterwards depends on memories and pins only, not on anything it did before.",
  "all machine states, all later histories",
  "All pairs of states before the reset and all executions after it.",
  [A+"uc51.cc:cl_51core::reset", A+"uc51.cc:cl_51core::clear_sfr", A+"uc52.cc:cl_uc52::clear_sfr", "src/core/sim.src/uc.cc:cl_uc::reset"])
p("8051: Idle and PowerDown",
  "A CPU in Idle or PowerDown executes nothing and keeps memories and registers; in Idle the peripherals go on, and an enabled interrupt request (a timer overflow for instance) ends Idle and is served at once; PowerDown is ended by reset only.",
  "all machine states, any length of sleep",
  "Unbounded sleeping times, all states.",
  [A+"uc51.cc:cl_51core::do_inst", A+"uc51.cc:cl_51core::idle_pd", A+"uc51.cc:cl_51core::do_interrupt", "src/core/sim.src/uc.cc:cl_uc::tick"])
I = "src/sims/i8085.src/"
p("8080/8085: every instruction does what the manual says",
  "From any state, executing any instruction of the 8080 (8085) changes registers, flags, stack and memory exactly as the programmer's manual says, and nothing else; so does every program, for any number of instructions.",
  "all machine states, all opcodes and operands, programs of any length",
  "2^(8*65546) states, unbounded runs.",
  [I+"i8085.cc", I+"ialu.cc", I+"imove.cc", I+"ibranch.cc", I+"inst.cc", I+"i8080.cc"])
p("8080/8085: BCD addition",
  "ADD (or ADC) of two packed BCD numbers followed by DAA gives the packed BCD sum in A and the decimal carry in CY.",
  "all pairs of BCD bytes, either carry, all operand registers, all states",
  "All operands from every state, both instructions.",
  [I+"ialu.cc:cl_i8080::DAA", I+"ialu.cc"])
p("8080/8085: clock counts",
  "The simulated clock advances by the number of states the manual gives for the instruction executed, for both outcomes of conditional instructions.",
  "all states, all opcodes",
  "Every opcode from every state.",
  [I+"glob.cc:tick_tab_8080", I+"glob.cc:tick_tab_8085", I+"i8080.cc:cl_i8080::exec_inst"])
p("8080/8085: disassembly",
  "The disassembled text of an instruction is its mnemonic with the operands found in memory, and the length shown is the number of bytes executing it consumes.",
  "all opcodes, operand bytes, addresses",
  "Every opcode and operand, at every address.",
  [I+"i8080.cc:cl_i8080::disassc", I+"glob.cc"])
p("next steps over subroutine calls",
  "The next command on a call instruction stops when the program is back at the instruction following the call, whatever the subroutine does in between; on any other instruction it executes that one instruction.",
  "all programs, all subroutines, any running time",
  "Unbounded subroutines.",
  ["src/core/cmd.src/cmd_exec.cc:cl_next_cmd::do_work", A+"glob.cc", "src/core/sim.src/uc.cc:cl_uc::is_call", I+"glob.cc"])
p("8085: the additional instructions",
  "DSUB, ARHL, RDEL, LDHI, LDSI, RSTV, SHLX, LHLX, JNX5 and JX5 do what the literature on the 8085 says.",
  "all machine states",
  "Every state.",
  [I+"i8085.cc", I+"i8085cl.h"])
M = "src/sims/mos6502.src/"
p("6502: every instruction does what the manual says",
  "From any state, executing any documented instruction of the 6502 changes registers, flags, stack and memory exactly as the programming manual says, and nothing else; so does every program, for any number of instructions. An undefined opcode stops the simulation and changes nothing; reset starts at the reset vector.",
  "all machine states, all opcodes and operands, programs of any length",
  "2^(8*65543) states, unbounded runs.",
  [M+"mos6502.cc", M+"mos6502cl.h", M+"ialu.cc", M+"imove.cc", M+"ibranch.cc", M+"inst.cc", M+"decode.h"])
p("6502: decimal arithmetic",
  "In decimal mode ADC and SBC of packed BCD bytes give the decimal sum and difference with the decimal carry (borrow); so numbers of any length are added and subtracted byte by byte.",
  "all BCD operands, both carries, numbers of any length",
  "Unbounded numbers.",
  [M+"ialu.cc:cl_mos6502::adc", M+"ialu.cc:cl_mos6502::sbc"])
p("6502: clock counts",
  "The simulated clock advances by the number of cycles the manual gives for the instruction executed, page crossings and taken branches included.",
  "all states, all opcodes",
  "Every opcode from every state.",
  [M+"mos6502.cc:cl_mos6502::exec_inst", M+"mos6502cl.h", M+"ibranch.cc:cl_mos6502::branch"])
p("6502: interrupts",
  "After each instruction a requested IRQ is taken iff I is clear, a requested NMI is taken whatever I is, once for each request; BRK is a software interrupt: PC and status are pushed (B shows BRK), I is set, PC comes from the vector, seven cycles pass; RTI returns to the interrupted program with its flags.",
  "all machine states, all handlers",
  "Every state and every handler.",
  [M+"mos6502.cc:cl_mos6502::accept_it", M+"mos6502.cc:cl_mos6502::make_hw_elements", M+"irq.cc", "src/core/sim.src/uc.cc:cl_uc::do_interrupt"])
p("6502: disassembly",
  "The disassembled text of an instruction is its mnemonic with the operands found in memory in the notation of its addressing mode, and the length shown is the number of bytes executing it consumes.",
  "all opcodes, operand bytes, addresses",
  "Every opcode and operand, at every address.",
  [M+"mos6502.cc:cl_mos6502::disassc", M+"glob.cc"])
p("8051 serial line: sending",
  "What is written to SBUF is sent on the output in that order, each byte at most once and nothing else; a program that waits for TI before each write loses nothing.",
  "all histories of register accesses, machine cycles, timer overflows and input",
  "Unbounded histories.",
  [A+"serial.cc:cl_serial::tick", A+"serial.cc:cl_serial::write", A+"serial.cc:cl_serial::serial_bit_cnt"])
p("8051 serial line: bit rate",
  "A frame (8, 10 or 11 bits by mode) takes the time the manual gives: 12 clocks a bit in mode 0, 64 or 32 in mode 2, 32 or 16 overflows of timer 1 or 16 of timer 2 in modes 1 and 3; TI or RI is set in the first machine cycle after it and not before, whatever was done with the line earlier.",
  "all earlier histories, modes, settings, interleavings of cycles, overflows and accesses",
  "Unbounded histories and interleavings.",
  [A+"serial.cc:cl_serial::serial_bit_cnt", A+"serial.cc:cl_serial::write", A+"serial.cc:cl_serial::happen", A+"serial.cc:cl_serial::tick"])
p("8051 serial line: receiving",
  "The bytes received are the input in its order, nothing lost, doubled or made up; each line end (CR, LF, CR LF, LF CR) of the input becomes the characters of the option nl, and without that option every byte is received as it is.",
  "all inputs, options and histories",
  "Unbounded input and histories.",
  ["src/core/sim.src/serial_hw.cc:cl_serial_hw::get_input", "src/core/sim.src/serial_hw.cc:cl_serial_hw::proc_not_in_menu", A+"serial.cc:cl_serial::tick"])
p("8051 serial line: flow control",
  "With flow control a program that reads SBUF after each reception reads all the input however slow it is; a reset of the CPU does not stop the input.",
  "all inputs and all histories in which SBUF is read after receptions only",
  "Unbounded histories, any speed of the program.",
  ["src/core/sim.src/serial_hw.cc:cl_serial_hw::proc_not_in_menu", A+"serial.cc:cl_serial::read", A+"serial.cc:cl_serial::reset"])
p("8052 timer 2: counting",
  "In each machine cycle timer 2 does what the manual says for the mode chosen in T2CON and T2MOD (capture, auto-reload up, auto-reload up/down, baud rate generator), counting machine cycles or falling edges at T2: so after n cycles the count, TF2 and the number of overflows are those of a 16 bit counter with that reload value.",
  "all histories of register writes, pin changes, machine cycles and resets, all reload values and numbers of cycles",
  "Unbounded histories.",
  [A+"timer2.cc:cl_timer2::tick", A+"timer2.cc:cl_timer2::write", A+"timer2.cc:cl_timer2::do_t2_baud", A+"timer2.cc:cl_timer2::do_t2_capture", A+"timer2.cc:cl_timer2::do_t2_reload", A+"timer2.cc:cl_timer2::do_t2_down"])
p("8052 timer 2: external input",
  "With EXEN2 set a falling edge at T2EX captures (or reloads) the timer in the next machine cycle and sets EXF2; without an edge, or with EXEN2 clear, no machine cycle does that.",
  "all histories, all sequences of levels at the pin between two cycles",
  "Unbounded histories and pin sequences.",
  [A+"timer2.cc:cl_timer2::happen", A+"timer2.cc:cl_timer2::do_t2_capture", A+"timer2.cc:cl_timer2::do_t2_reload", A+"port.cc:cl_port::write"])
p("8052: baud rate from timer 2",
  "With timer 2 as the baud rate generator a bit of the serial line takes 32*(65536-RCAP2) clocks of the oscillator: a byte written to SBUF is out in exactly that machine cycle, whatever was done before.",
  "all histories of both devices, all RCAP2, any number of cycles",
  "Unbounded histories; composition of two devices.",
  [A+"timer2.cc:cl_timer2::do_t2_baud", A+"serial.cc:cl_serial::happen", A+"serial.cc:cl_serial::serial_bit_cnt", "src/core/sim.src/uc.cc:cl_uc::tick_hw"])
UT = "src/core/utils.src/"
p("input files: bytes",
  "Input given to the simulator in a file, pipe or character device reaches its reader once, in order and unchanged; input_avail says yes exactly when read gives data or the end, and the end (read returns 0, eof) is reported when everything was read and only then.",
  "all files, all interleavings of input_avail and read calls, all ways the operating system may cut the data into pieces",
  "Unbounded files and schedules.",
  [UT+"fio.cc:cl_f::put", UT+"fio.cc:cl_f::get", UT+"fio.cc:cl_f::pick", UT+"fio.cc:cl_f::input_avail", UT+"fio.cc:cl_f::read_dev", UT+"fio.cc:cl_f::eof", UT+"fuio.cc:cl_io::check_dev"])
p("command files: lines",
  "Every line of a command file (lines ended with LF, CR or both, the last one possibly not ended) is handed to the command interpreter in order and unchanged, and the console is closed after the last line and not before.",
  "all files, all polling schedules, all ways the operating system may cut the data into pieces",
  "Unbounded files and schedules.",
  ["src/core/cmd.src/newcmdposix.cc:cl_console::read_line", "src/core/cmd.src/newcmdposix.cc:cl_commander::proc_input", "src/core/cmd.src/newcmd.cc:cl_console_base::proc_input"])
p("command line: editing",
  "What the user types and edits on the command line of an interactive console is what the console executes: whatever keys are pressed, the line has the text and cursor that the keys call for (characters, cursor keys, Home/End, Backspace, Del, ^K, history), and every line ended with Enter is handed to the command interpreter once, in order, unchanged.",
  "all lists of keys, all codes terminals send for them, all line end conventions, all ways the operating system may cut the characters into pieces",
  "Unbounded sessions and schedules.",
  [UT+"fio.cc:cl_f::process", UT+"fio.cc:cl_f::process_esc", UT+"fio.cc:cl_f::process_csi", UT+"fio.cc:cl_f::pick", "src/core/cmd.src/newcmdposix.cc:cl_console::read_line"])
p("command line: display",
  "The terminal always shows, after the prompt, exactly the line that is being edited, with the cursor at its place, and the prompt is never overwritten.",
  "all sequences of characters (any bytes), any content of the screen before, a terminal that is wide enough",
  "Unbounded sequences.",
  [UT+"fio.cc:cl_f::process", UT+"fio.cc:cl_f::echo_write", UT+"fio.cc:cl_f::echo_cursor_go_left", UT+"fio.cc:cl_f::echo_cursor_save"])
p("command line: history",
  "Up and Down show the lines entered before, newest first, and Down comes back to the line that was being typed; looking at old lines does not change the history.",
  "all sessions, all sequences of Up and Down",
  "Unbounded sessions.",
  [UT+"fio.cc:cl_history::up", UT+"fio.cc:cl_history::down", UT+"fio.cc:cl_history::enter", UT+"fio.cc:cl_history::replace"])
p("command line: buffers",
  "No sequence of characters coming from a terminal or a network connection makes the line editor write outside of its buffers or call library functions with invalid arguments; a line is at most 1023 characters long and the cursor is always within it.",
  "all sequences of bytes",
  "Unbounded sequences of arbitrary bytes.",
  [UT+"fio.cc:cl_f::process", UT+"fio.cc:cl_f::process_esc", UT+"fio.cc:cl_f::process_csi", UT+"fio.cc:cl_f::process_telnet"])
SI = "src/core/sim.src/simif.cc:"
p("simulator interface: commands",
  "A simulated program that writes a command of the simulator interface with its arguments and reads the whole answer gets the documented answer and causes exactly the documented effects (characters on the console, bytes in the output file, stop, reset, execution limit), whatever commands it gave before; input bytes are read once, in order, none lost.",
  "all sequences of commands and arguments, all input files, for pipes all behaviours of the operating system",
  "Unbounded histories, files and schedules.",
  [SI+"cl_simulator_interface::read", SI+"cl_simulator_interface::write", SI+"cl_sif_command::need_params", SI+"cl_sif_command::start_answer", SI+"cl_sif_read::produce_answer", SI+"cl_sif_fin_check::produce_answer", SI+"cl_sif_setlimit::produce_answer", SI+"cl_sif_getlimit::produce_answer", "docs/simif.html"])
p("simulator interface: any program",
  "Whatever a program does with the cell of the simulator interface, reads of waiting or idle states and writes during an answer have no effects, and the interface can be brought back to its default state with the reset command.",
  "all sequences of reads and writes",
  "Unbounded sequences.",
  [SI+"cl_sif_command::read", SI+"cl_sif_command::write", SI+"cl_simulator_interface::finish_command", "docs/simif.html"])

Z = "src/sims/z80.src/"
p("Z80: instructions",
  "Every instruction of the Z80 (unprefixed, CB, ED, DD, FD, DDCB, FDCB) changes registers, flags, interrupt flip-flops, memory, ports and PC exactly as Zilog's manual says, and the simulation stops just at HALT; so a program computes what it computes on the chip.",
  "all machine states, all documented instructions, programs of any length",
  "2^200 states, more than 1000 instructions, unbounded runs.",
  [Z+"z80.cc:cl_z80::exec_inst", Z+"inst.cc", Z+"inst_cb.cc", Z+"inst_ed.cc", Z+"inst_xd.cc", Z+"inst_xxcb.cc", Z+"z80mac.h", Z+"instcl.h"])
p("Z80: clock periods",
  "Every instruction of the Z80 takes the number of clock periods (T states) the manual gives, so elapsed time measured by the simulator is the time of the chip.",
  "all machine states, all documented instructions, programs of any length",
  "Unbounded runs, every state.",
  [Z+"z80.cc:cl_z80::exec_inst", Z+"inst.cc", Z+"inst_cb.cc", Z+"inst_ed.cc", Z+"inst_xd.cc", Z+"inst_xxcb.cc"])
p("Z80: blocks",
  "LDIR and LDDR copy a block of BC bytes (65536 when BC is 0) and change nothing else, also when blocks overlap the copying is byte by byte; CPIR and CPDR stop behind the first byte equal to A, or after the last byte with Z clear.",
  "all lengths, addresses and contents of the memory",
  "Unbounded repetition, all overlaps.",
  [Z+"inst_ed.cc:cl_z80::inst_ed_ldir", Z+"inst_ed.cc:cl_z80::inst_ed_lddr", Z+"inst_ed.cc:cl_z80::inst_ed_cpir", Z+"inst_ed.cc:cl_z80::inst_ed_cpdr"])

p("Z80: decimal arithmetic",
  "ADD or ADC (SUB or SBC) of two numbers of two decimal digits followed by DAA leaves the last two decimal digits of the sum (difference) in A and the decimal carry (borrow) in C, for every kind of operand.",
  "all numbers, both carries, all machine states",
  "All states of the machine around the two instructions.",
  [Z+"inst.cc:cl_z80::inst_daa", Z+"z80mac.h:add_A_bytereg", Z+"z80mac.h:sub_A_bytereg"])
p("Z80: disassembly",
  "The disassembler shows every documented instruction as the manual writes it with the operands that are in memory, knows its length, and knows the calls (for next).",
  "all memory contents, all documented instructions",
  "Seven tables, all operand values.",
  [Z+"z80.cc:cl_z80::disass", Z+"z80.cc:cl_z80::get_disasm_info", Z+"z80.cc:cl_z80::inst_length", Z+"z80.cc:cl_z80::is_call", Z+"glob.cc"])
p("Z80: reset and refresh register",
  "Reset starts the program at address 0 with interrupts disabled in mode 0 and I = R = 0; R counts the opcode fetches in its low seven bits, its highest bit stays as loaded.",
  "all states, programs of any length",
  "Unbounded runs.",
  [Z+"z80.cc:cl_z80::reset", Z+"z80.cc:cl_z80::inc_R", Z+"z80.cc:cl_z80::exec_inst"])

CM="src/core/cmd.src/"
p("Command lines: arguments",
  "However a command is written (names, numbers in decimal, octal, hexadecimal, binary, signs, strings with escapes, elements x[i], bits x.b and x[h:l], redirections, any blanks or commas between them, a comment or a further command after it), the command gets exactly the arguments meant, in their order, and its output goes where meant; what is not an argument is reported; no line makes the simulator read outside the line.",
  "all lines of any length",
  "Unbounded lines of all shapes.",
  [CM+"command.cc:cl_cmdline::split", CM+"command.cc:cl_cmdline::shift", CM+"command.cc:cl_cmdline::set_data_list", "src/core/sim.src/arg.cc"])
p("Command lines: sequences",
  "Commands on one line separated by ; do what they do when entered on lines of their own, each once and in this order; a comment or an empty line does nothing; a command that ends the session ends it.",
  "all sequences of any number of commands, all command sets",
  "Unbounded sequences.",
  [CM+"newcmd.cc:cl_console_base::proc_input", CM+"command.cc:cl_cmdline::restart_at_rest", CM+"command.cc:cl_cmdset::get_cmd", CM+"command.cc:cl_super_cmd::work"])
p("Command lines: names, subcommands, repetition",
  "A command is found by its name or by any prefix that fits no other command, through any depth of subcommands, and is run once with the remaining arguments; an empty line repeats the last command that can be repeated.",
  "all command sets, all names, any depth of subcommands",
  "All command sets and names.",
  [CM+"command.cc:cl_cmdset::get_cmd", CM+"command.cc:cl_super_cmd::work", CM+"command.cc:cl_cmd::name_match", CM+"newcmd.cc:cl_console_base::proc_input"])
p("set memory",
  "set memory stores the values meant by its data (numbers, characters of strings with escapes) one after the other from the address on, each modulo the width of the memory, and changes nothing else; with a bit argument exactly the bits meant change; what can not be stored is reported.",
  "all memories and their wiring, addresses, lists of data of any length",
  "Unbounded data, all memory systems.",
  [CM+"cmd_set.cc:cl_set_mem_cmd", CM+"command.cc:cl_cmdline::set_data_list", CM+"cmdutil.cc:proc_escape", "src/core/sim.src/arg.cc:get_bit_address"])
MC="src/core/sim.src/mem.cc:"
p("dump: ranges",
  "dump with two addresses shows exactly the locations of the memory between them, each once, in the order asked for (up or down), with as many values on a line as asked for and every line with the address of its first value; with one address it shows the 65 locations from there; it always ends.",
  "all memories (start, size, width, contents), addresses, numbers of values on a line",
  "All memories and ranges, termination.",
  [MC+"cl_memory::dump", CM+"cmd_uc.cc:cl_dump_cmd"])
p("dump: repetition",
  "dump without addresses goes on where the last dump of the memory ended; repeated it shows the whole memory, ten lines at a time, without gaps and overlaps, and then starts again.",
  "all memories, any number of repetitions",
  "Unbounded repetition.",
  [MC+"cl_memory::dump", "src/core/sim.src/memcl.h:dump_finished", CM+"cmd_uc.cc:cl_dump_cmd"])
p("dump: names and code",
  "The default dump shows every location asked for once, all names of every location, and for names of bits the value of these bits; of the program memory it shows the instructions one after the other; without addresses it shows ten lines.",
  "all memories, tables of variables, ranges",
  "All tables of variables against all ranges.",
  [MC+"cl_memory::dump", "src/core/sim.src/var.cc:cl_vars_iterator", CM+"cmd_uc.cc:cl_dump_cmd"])
p("dump: strings and bytes",
  "dump /s writes the bytes up to the first zero as a string of C that stands for just these bytes; dump /b writes just the bytes of the locations asked for and touches no other location; what dump /s writes can be stored again with set memory.",
  "all memories and addresses",
  "All contents of memory.",
  [MC+"cl_memory::dump_s", MC+"cl_memory::dump_b", UT+"fio.cc:cl_f::prntf", CM+"cmdutil.cc:proc_escape"])
H="src/sims/m68hc08.src/"
p("M68HC08 and HCS08: programs",
  "Executing a program of any length gives the registers, flags and memory that the CPU08 (HCS08) manual says, for every instruction and addressing mode; an opcode without meaning stops the simulation and changes nothing.",
  "all programs, all states of registers and memory, any number of instructions, both processors",
  "All programs and states.",
  [H+"m68hc08.cc:cl_hc08::exec_inst", H+"inst.cc", H+"hc08mac.h"])
p("M68HC08: decimal arithmetic",
  "ADD or ADC of two decimal numbers followed by DAA leaves the two decimal digits of the sum in A and the carry of the decimal sum in C.",
  "all pairs of two-digit numbers and carries, all states",
  "Composition of two instructions for all operands and states.",
  [H+"inst.cc:cl_hc08::inst_daa", H+"inst.cc:cl_hc08::inst_add", H+"inst.cc:cl_hc08::inst_adc"])
p("M68HC08 and HCS08: cycles",
  "Every instruction advances the clock by the number of cycles in the manual of the processor, in all states.",
  "all instructions and addressing modes, all states, both processors",
  "All states.",
  [H+"m68hc08.cc:cl_hc08::exec_inst", H+"inst.cc"])
p("M68HC08: reset",
  "After reset execution starts at the address in the vector at FFFE with interrupts masked and SP 00FF; memory is kept; a PC set by the user after reset is where execution starts.",
  "all states and memories",
  "All states.",
  [H+"m68hc08.cc:cl_hc08::reset", H+"m68hc08.cc:cl_hc08::exec_inst"])
p("M68HC08: disassembly",
  "The text shown for an instruction is its assembly language, the length is the number of its bytes (so that a listing shows the instructions that are executed one after the other), and calls are exactly the instructions that save a return address.",
  "all instructions with all operands at all addresses, both processors",
  "All instructions, operands and addresses.",
  [H+"m68hc08.cc:cl_hc08::disass", H+"m68hc08.cc:cl_hc08::get_disasm_info", H+"glob.cc:disass_hc08"])
p("9S08: linear pointer and program pages",
  "All accesses of a program see the memory the manual describes: PPAGE selects the 16K page of the 128K extended memory shown at 8000-BFFF, the other addresses from 2080 on show the first 64K; LAP reads back as written, LAPAB adds a signed byte to it, LWP and LBP access the byte it points to and advance it (modulo 128K), LB does not advance it; a block written through them is read back from the same addresses and nothing else changes; pages do not disturb each other.",
  "all sequences of reads and writes of any length, all contents of memory, all pages, pointers and blocks",
  "All histories of accesses.",
  [H+"m68hc08.cc:cl_mmu::read", H+"m68hc08.cc:cl_mmu::write", H+"m68hc08.cc:cl_9s08::make_memories"])
p("9S08: CALL and RTC",
  "CALL saves the return address and the page and goes to its target in its page; whatever the subroutine does, if it keeps the stack, RTC returns behind the CALL in the page of the caller with the stack pointer it had.",
  "all pages, addresses, stack positions in RAM and all subroutines",
  "All subroutines and states.",
  [H+"m68hc08.cc:cl_9s08::inst_call", H+"m68hc08.cc:cl_9s08::inst_rtc"])
p("9S08: instruction set and listings",
  "The 9S08 executes all instructions of the HCS08 besides CALL and RTC, and listings show every instruction with its text and length.",
  "all instructions at all addresses",
  "All instructions, operands and addresses.",
  [H+"m68hc08.cc:cl_9s08::get_disasm_info", H+"inst.cc:cl_hc08::inst_ldhx", H+"inst.cc:cl_hc08::inst_cphx"])
Q = "src/sims/i8048.src/"
p("MCS-48: programs",
  "Executing a program of any length on an 8048 gives the registers, flags, data memory, ports and external memory that the MCS-48 manual says, for every instruction; a code without meaning stops the simulation and changes nothing but the bus.",
  "all programs, all states, any number of instructions",
  "All programs and states.",
  [Q+"i8020.cc:cl_i8020::exec_inst", Q+"arith.cc", Q+"branch.cc:CL2::djnz", Q+"move.cc", Q+"i8020cl.h"])
p("MCS-48: subroutines",
  "CALL saves the return address and the upper half of PSW; RET returns behind the CALL, RETR also restores carry, auxiliary carry, F0 and the register bank; nested calls up to eight levels, interrupts included, do not disturb each other.",
  "all nestings up to the depth of the stack, all states and subroutines",
  "All histories of calls and interrupts.",
  [Q+"i8020.cc:cl_i8020::push", Q+"i8020.cc:cl_i8020::pop", Q+"i8048.cc:cl_i8048::RETR"])
p("MCS-48: timer and event counter",
  "After STRT T the timer is incremented every 32 machine cycles, after STRT CNT at every fall of T1; the flag tested by JTF is set when it passes from FF to 0, JTF clears it; STOP TCNT stops both.",
  "any number of clocks, any history of levels of T1, all states",
  "Any number of clocks.",
  [Q+"timer.cc:cl_timer::tick", Q+"timer.cc:cl_timer::do_timer"])
p("MCS-48: interrupts",
  "An enabled external interrupt (INT low) saves PC and PSW and goes to 3, an enabled overflow of the timer to 7; no interrupt is taken while one is served; after RETR the interrupted program goes on as if nothing had happened.",
  "all states, all interrupt routines that keep the stack",
  "All moments of interrupts and all routines.",
  [Q+"i8048.cc:cl_i8048::accept_it", Q+"i8048.cc:cl_i8048::make_irq_sources", Q+"timer.cc", Q+"ints.cc"])
p("MCS-48: machine cycles",
  "Every instruction takes one or two machine cycles as in the manual, in all states.",
  "all instructions in all states",
  "All states.",
  [Q+"i8020.cc:cl_i8020::exec_inst", Q+"decode.h"])
p("MCS-48: decimal arithmetic",
  "ADD or ADDC of two decimal numbers followed by DA A leaves the two decimal digits of the sum in A and the decimal carry in C.",
  "all pairs of two-digit numbers and carries, all states",
  "Composition of two instructions for all operands and states.",
  [Q+"arith.cc:CL2::daa", Q+"arith.cc:cl_i8020::add"])
p("MCS-48: ports",
  "IN reads a pin as 1 only when its latch is 1 and nothing outside pulls it down; ORL and ANL change the latches, whatever is at the pins; the other port does not change; the ports of the expander are four bits each and independent, and using them leaves the upper half of port 2 as it is.",
  "all states of latches and pins",
  "All states.",
  [Q+"port.cc", Q+"i8048.cc:cl_i8048::ORLP1I8", Q+"arith.cc:CL2::orld"])
p("MCS-48: register banks",
  "SEL RB0/RB1 selects the bank without changing data memory; writing a register changes this register of the selected bank and nothing else.",
  "all states, all registers and instructions writing a register",
  "All states.",
  [Q+"i8020cl.h", Q+"i8048.cc:cl_flag48_op::write"])
p("MCS-48: disassembly",
  "The text shown for an instruction is its assembly language, the length is the number of its bytes (so that a listing shows the instructions executed one after the other), and CALL is known to be a call.",
  "all instructions with all operands at all addresses",
  "All instructions, operands and addresses.",
  [Q+"i8020.cc:cl_i8020::disassc", Q+"i8020.cc:cl_i8020::inst_length", Q+"decode.h"])
V = "src/sims/avr.src/"
p("AVR: programs",
  "Executing a program of any length on the AVR gives the registers, SREG, data memory, program counter and sleep state that the AVR instruction set manual says, for every instruction; a word that is no instruction stops the simulation and changes nothing.",
  "all programs, all states, any number of instructions",
  "All programs and states.",
  [V+"avr.cc:cl_avr::exec_inst", V+"arith_inst.cc", V+"logic_inst.cc", V+"bit_inst.cc", V+"move_inst.cc", V+"jump_inst.cc", V+"inst.cc"])
p("AVR: stack",
  "POP after PUSH gives the value pushed and the stack pointer back; after RCALL, ICALL or CALL, whatever the subroutine does, if it keeps the stack, RET and RETI return behind the call with the stack pointer it had.",
  "all registers, values and stack positions, all subroutines",
  "All subroutines and states.",
  [V+"avr.cc:cl_avr::push_data", V+"avr.cc:cl_avr::push_addr", V+"avr.cc:cl_avr::pop_data", V+"avr.cc:cl_avr::pop_addr", V+"jump_inst.cc:cl_avr::rcall_k", V+"jump_inst.cc:cl_avr::ret"])
p("AVR: addition of numbers of any size",
  "ADD of the lowest bytes followed by ADC of the others adds two numbers of any number of bytes: the result registers and the carry flag hold the exact sum, other registers do not change.",
  "all numbers of bytes, all disjoint choices of registers, all values",
  "Any number of bytes and all values; composition of instructions.",
  [V+"arith_inst.cc:cl_avr::add_Rd_Rr", V+"arith_inst.cc:cl_avr::adc_Rd_Rr"])
p("AVR: subtraction of numbers of any size",
  "SUB of the lowest bytes followed by SBC of the others subtracts two numbers of any number of bytes: the result registers and the carry flag hold the exact difference and borrow.",
  "all numbers of bytes, all values",
  "Any number of bytes and all values.",
  [V+"arith_inst.cc:cl_avr::sub_Rd_Rr", V+"arith_inst.cc:cl_avr::sbc_Rd_Rr"])
p("AVR: clock cycles",
  "Every instruction takes the number of clock cycles of the manual, branches and skips as many as they have when taken or not.",
  "all instructions in all states",
  "All states.",
  [V+"avr.cc:cl_avr::exec_inst", V+"jump_inst.cc", V+"move_inst.cc"])
p("AVR: skips",
  "CPSE, SBRC, SBRS, SBIC and SBIS skip exactly the next instruction, of one or of two words, when their condition holds, and nothing otherwise; nothing else changes.",
  "all states, all next instructions, all addresses",
  "All next instructions and states.",
  [V+"jump_inst.cc:cl_avr::cpse_Rd_Rr", V+"jump_inst.cc:cl_avr::sbrc_Rr_b", V+"jump_inst.cc:cl_avr::sbrs_Rr_b", V+"jump_inst.cc:cl_avr::sbic_P_b", V+"jump_inst.cc:cl_avr::sbis_P_b"])
p("AVR: disassembly",
  "The text shown for an instruction is its assembly language with its registers and the address it jumps to, the length is the number of its words, and calls are known as calls.",
  "all instructions with all operands at all addresses",
  "All instructions, operands and addresses.",
  [V+"avr.cc:cl_avr::disass", V+"glob.cc:disass_avr", "src/core/sim.src/uc.cc:cl_uc::inst_length", "src/core/sim.src/uc.cc:cl_uc::is_call"])
VC = "src/core/sim.src/vcd.cc:"
p("A value change dump shows what happened",
  "Reading the dump by the rules of the format at any time gives each watched field the value it had at that time of the simulation, and unknown while the dump was paused; pauses longer than the limit are shortened to it.",
  "all sets of watched fields, all histories of writes, passing time, pauses and restarts, all moments of them",
  "A test records one run; histories, moments and fields are unbounded.",
  [VC+"cl_vcd::report", VC+"cl_vcd_var::write", VC+"cl_vcd::set_cmd", MC+"cl_memory_cell::write", MC+"cl_memory_cell::set"])
p("Playing a dump gives the fields the values of the dump",
  "A dump used as input gives each of its variables, at every time, the value that the dump has before that time; a recording that is played reproduces what was recorded, whatever the memory was and however often the player is called.",
  "all recordings, all memories, all sequences of calls of the player",
  "Recordings and the moments of the calls are unbounded.",
  [VC+"cl_vcd::tick", VC+"cl_vcd::read_word", VC+"cl_vcd::set_cmd"])
p("Variables of a dump",
  "The fields added are the variables of the dump, each once, with an identifier of its own that is a printable character; what was added can be deleted by the same words, and nothing else is deleted; nothing is added to a dump that was started.",
  "all sequences of add and delete commands",
  "Sequences of commands are unbounded.",
  [VC+"cl_vcd::add_var", VC+"cl_vcd::del_var", VC+"cl_vcd::set_cmd", "src/core/sim.src/vcdcl.h:cl_vcd::get_next_var_id"])
PP = "src/sims/p1516.src/"
p("P1516: arithmetic and flags",
  "Every instruction of the ALU gives the destination the value and S, C, Z and O the values that its name stands for, changes nothing else and takes one clock.",
  "all operations, registers, operand values, flags and addresses",
  "All values.",
  [PP+"p1516.cc:cl_p1516::inst_alu", PP+"p1516.cc:cl_p1516::inst_ad", PP+"p1516.cc:cl_p1516::exec_inst"])
p("P2223: arithmetic and flags",
  "Every ALU instruction of one operand, of two registers, and of a register and an immediate, gives the register the value and the flags the values that its name stands for, changes nothing else and takes four clocks; comparisons and tests change flags only.",
  "all operations, registers, operand values, immediates, flags, conditions and addresses",
  "All values.",
  [PP+"p2223.cc:cl_p2223::inst_alu", PP+"p2223.cc:cl_p2223::inst_alu_1op", PP+"p1516.cc:cl_p1516::inst_ad"])
p("P2223: comparing and branching",
  "A conditional jump after a comparison is taken exactly when the two numbers compare as the condition says: unsigned for CS, CC, HI, LS, signed for GE, LT, GT, LE.",
  "all pairs of numbers, all conditions, registers and immediates",
  "2^64 pairs of numbers.",
  [PP+"p2223.cc:cl_p2223::cond", PP+"p2223.cc:cl_p2223::inst_alu", PP+"p1516.cc:cl_p1516::inst_ad"])
p("P1516, P2223: an instruction whose condition is false does nothing",
  "An instruction whose condition is not met changes no register, flag or memory; execution goes on with the next instruction, and the clocks are counted.",
  "all instruction words with all conditions in all states",
  "All words and states.",
  [PP+"p1516.cc:cl_p1516::cond", PP+"p1516.cc:cl_p1516::exec_inst", PP+"p2223.cc:cl_p2223::cond", PP+"p2223.cc:cl_p2223::exec_inst"])
p("P1516, P2223: calls and returns",
  "A call goes to its target (absolute, or register plus signed offset) with the address of the next instruction in R14; a return with R14 unchanged comes back there, whatever the subroutine did.",
  "all targets, all subroutines that keep R14",
  "Subroutines are arbitrary.",
  [PP+"p1516.cc:cl_p1516::exec_inst", PP+"p2223.cc:cl_p2223::inst_call", PP+"p2223.cc:cl_p2223::inst_alu"])
p("P1516, P2223: loads, stores, constants and stacks",
  "Loads and stores access the word at the address that registers, offset and index mode give, and nothing else; the index register is changed as the mode says; the two halves of a constant make the constant; what was pushed is popped, and the stack pointer is restored, for every setting of the flags U and P.",
  "all registers, addresses in the memory, offsets, modes, flags, values, and all programs between push and pop that keep the stack",
  "All states and programs between.",
  [PP+"p1516.cc:cl_p1516::exec_inst", PP+"p2223.cc:cl_p2223::inst_mem", PP+"p2223.cc:cl_p2223::inst_ext"])
p("P2223: bytes of words",
  "GETB, GETBZ and GETBS give the selected byte of a register (others kept, zero or sign extended), PUTB replaces the selected byte and no other; the byte is selected by the instruction or by a register.",
  "all registers, values and byte numbers",
  "All values.",
  [PP+"p2223.cc:cl_p2223::inst_ext"])
p("P1516, P2223: the disassembler says what is executed",
  "The line shown for an instruction word is the instruction that is executed, with its condition, registers and numbers.",
  "all 2^32 instruction words in all states",
  "All words and states.",
  [PP+"glob.cc:disass_p1516", PP+"glob.cc:disass_p2223", PP+"p1516.cc:cl_p1516::disassc", PP+"p2223.cc:cl_p2223::disassc", PP+"p1516.cc:cl_p1516::exec_inst", PP+"p2223.cc:cl_p2223::exec_inst"])
p("P1516, P2223: arithmetic of several words",
  "Chains of ADDC (ADC) and SBB add and subtract numbers of any number of words, with C as the highest digit and as the borrow.",
  "all numbers of words, all values",
  "The number of words is unbounded.",
  [PP+"p1516.cc:cl_p1516::inst_alu", PP+"p1516.cc:cl_p1516::inst_ad", PP+"p2223.cc:cl_p2223::inst_alu"])
p("P1516, P2223: PC shows the instruction that is executed next",
  "At all times the next step executes the instruction at PC: after reset, after PC was set, after an instruction, an invalid instruction or a breakpoint; at a breakpoint nothing was executed and no clocks were counted.",
  "all states and instructions, breakpoints anywhere",
  "All states.",
  [PP+"p1516.cc:cl_p1516::set_PC", PP+"p1516.cc:cl_p1516::reset", PP+"p1516.cc:cl_p1516::exec_inst", PP+"p2223.cc:cl_p2223::exec_inst", "src/core/sim.src/uc.cc:cl_uc::do_inst"])
p("P1516, P2223: rotations are inverse",
  "ROL and then ROR, or the other way round, give the register and C back.",
  "all values of the register and of C",
  "2^33 values.",
  [PP+"p1516.cc:cl_p1516::inst_alu", PP+"p2223.cc:cl_p2223::inst_alu_1op"])
PK = "src/sims/pdk.src/"
PKX = [PK+"pdk13.cc:cl_fpp13::execute", PK+"pdk14.cc:cl_fpp14::execute", PK+"pdk15.cc:cl_fpp15::execute"]
p("PADAUK: arithmetic and flags",
  "add, sub, addc, subc, inc, dec, nadd and comp, in all their forms and on PDK13, PDK14 and PDK15, give the destination the sum or difference and Z, C, AC and OV the values of that sum or difference, change nothing else and take one cycle.",
  "all instruction words of these instructions, all operand values, flags and addresses",
  "All values, on three instruction sets.",
  [PK+"inst.cc:cl_fpp::add_to", PK+"inst.cc:cl_fpp::sub_to"]+PKX)
p("PADAUK: arithmetic of several bytes",
  "A program of mov a,m / addc m,a (subc m,a) over successive bytes adds or subtracts numbers of any length in memory, with C as the carry in and out, and changes nothing else but A and the flags.",
  "all lengths, all numbers, all places in memory that do not overlap",
  "The length is unbounded.",
  [PK+"inst.cc:cl_fpp::add_to", PK+"inst.cc:cl_fpp::sub_to"]+PKX)
p("PADAUK: logic, shifts, moves, bits, io registers, multiplication",
  "Every such instruction does to A, memory, io register and flags what its name stands for, and nothing else; an io register gives back what was written to it; mul gives the 16 bit product; the T16 counter goes to memory and back unchanged.",
  "all instruction words, values and addresses",
  "All values, on three instruction sets.",
  [PK+"inst.cc:cl_fpp::sub_to", PK+"pdk.cc:cl_fpp::exec_inst"]+PKX)
p("PADAUK: calls, returns and the stack",
  "A subroutine comes back to the instruction after its call with SP as before, popaf gives back what pushaf saved, to any depth of nesting.",
  "all programs that are balanced, all depths",
  "The depth and the programs are unbounded.",
  PKX)
p("PADAUK: skips",
  "t0sn, t1sn, ceqsn, cneqsn, izsn and dzsn skip exactly the next instruction, and exactly when their condition holds.",
  "all such instruction words, all values, all places in the program memory",
  "All values, on three instruction sets.",
  PKX)
p("PADAUK: jumps, cycles, invalid words",
  "goto and pcadd go to their target; each instruction takes the cycles of the data sheet (two for goto, call, ret, a taken skip, the indirect moves); a word that is no instruction is refused and changes nothing but PC.",
  "all instruction words in all states",
  "All words and states.",
  [PK+"pdk.cc:cl_fpp::exec_inst"]+PKX)
p("PADAUK: the processors are private",
  "A, F, SP and PC of a processor (FPP) are changed by its own instructions only; a processor that is not enabled does not run.",
  "all numbers of processors, all programs",
  "All interleavings of the processors.",
  [PK+"pdk.cc:cl_pdk::exec_inst", PK+"pdk.cc:cl_pdk::act"])
p("PADAUK: the enabled processors take turns",
  "The enabled processors execute in turn, one instruction each; every enabled one gets its turn again and again; choosing the next one ends.",
  "all numbers of processors, all sets of enabled ones, runs of any length",
  "Runs are unbounded.",
  [PK+"pdk.cc:cl_pdk::exec_inst", PK+"pdk.cc:cl_pdk::act"])
p("PADAUK: stopped until reset",
  "After stopsys or stopexe no processor executes anything until reset, and reset starts the chip.",
  "all states and runs of any length",
  "Runs are unbounded.",
  [PK+"pdk.cc:cl_pdk::exec_inst", PK+"pdk.cc:cl_pdk::reset"]+PKX)
p("PADAUK: reset",
  "After reset the chip is in the state of the data sheet whatever was before: PC of every processor, A, F, SP, FPPEN, CLKMD; the instruction reset does the same.",
  "all states",
  "All histories before the reset.",
  [PK+"pdk.cc:cl_pdk::reset", PK+"pdk.cc:cl_fpp::reset", PK+"osc.cc:cl_osc::reset", PK+"wdt.cc:cl_wdt::reset"])
p("PADAUK: the disassembler says what is executed",
  "The line shown for an instruction word is the instruction that is executed, with its registers and numbers.",
  "all instruction words of PDK13, PDK14 and PDK15",
  "All words.",
  [PK+"glob.cc:disass_pdk_13", PK+"glob.cc:disass_pdk_14", PK+"glob.cc:disass_pdk_15", PK+"pdk.cc:cl_fpp::disassc"]+PKX)
p("PADAUK: the timer T16",
  "T16 counts the selected clock divided by the selected number, however the instructions cut up the time, and requests its interrupt exactly when the counter passes the selected edge of the selected bit.",
  "all settings of T16M and INTEGS, all sequences of instructions of any duration",
  "Histories of the clock are unbounded.",
  [PK+"t16.cc:cl_t16::tick", PK+"t16.cc:cl_t16::recalc", PK+"t16.cc:cl_t16::set_div", PK+"t16.cc:cl_t16::write", PK+"t16.cc:cl_t16::reset"])
p("PADAUK: the watchdog",
  "The enabled watchdog resets the chip exactly when more than the selected number of ILRC periods have gone by since the latest wdreset; a disabled one never does; it is enabled after a reset.",
  "all settings, all histories of wdreset, writes of CLKMD and time",
  "Histories are unbounded.",
  [PK+"wdt.cc:cl_wdt::tick", PK+"wdt.cc:cl_wdt::recalc", PK+"wdt.cc:cl_wdt::write", PK+"wdt.cc:cl_wdt::reset"])
O = "src/sims/oisc.src/"
OX = [O+"oisc.cc:cl_oisc::exec_inst", O+"oisc.cc:cl_op_pass", "src/core/sim.src/mem.cc:cl_memory_cell::read", "src/core/sim.src/mem.cc:cl_memory_cell::write"]
p("MISC16: programs",
  "A program of any length does to A, C, PC and memory what the table of sources and destinations of the MISC16 says of its moves, four clocks each; after reset it starts at 16.",
  "all states, all programs that stay within the table, any number of instructions",
  "65536 by 65536 instruction words, all states, and programs of any length.",
  [O+"misc16.cc:cl_misc16::read", O+"misc16.cc:cl_misc16::write", O+"misc16.cc:cl_misc16::add", O+"misc16.cc:cl_misc16::sub", O+"misc16.cc:cl_misc16::shift", O+"misc16.cc:cl_misc16::reset"]+OX)
p("MISC16: long shifts",
  "A number of any number of words is shifted right through the carry by one pair of moves for each word; nothing else in memory changes.",
  "all numbers of words, all values, all places of the program and the number",
  "The number of words is unbounded but for memory.",
  [O+"misc16.cc:cl_misc16::shift"]+OX)
p("MISC16: comparisons",
  "After A = x, A = A - y, the three conditional jumps are taken exactly if x < y (C), x = y (zero), or the difference mod 65536 is negative; otherwise the next instruction follows.",
  "all x and y, all places of the program",
  "2^32 pairs of words.",
  [O+"misc16.cc:cl_misc16::sub", O+"misc16.cc:cl_misc16::write"]+OX)
p("MISC16: subroutines",
  "Moving PC+4 to a word r and a label to PC calls; moving r to PC, after a subroutine of any length that left r alone, continues after the call.",
  "all places, subroutines of any length and content that keep r",
  "The subroutine is any program.",
  [O+"misc16.cc:cl_misc16::read", O+"misc16.cc:cl_misc16::write"]+OX)
p("MISC16: the text of an instruction",
  "The disassembled line names the destination and the source that the instruction uses when it is executed, a memory operand by its address.",
  "all instruction words of the table",
  "All pairs of words.",
  [O+"misc16.cc:cl_misc16::dis_src", O+"misc16.cc:cl_misc16::dis_dst", O+"oisc.cc:cl_oisc::disassc"])
p("Extended MISC16: programs",
  "A program of any length does to A, C, P, PC and memory what the table of the extended MISC16 says, with the pointer moves of [P++], [--P] and [A++], four clocks each.",
  "all states, all programs that stay within the table, any number of instructions",
  "All instruction words, all states, and programs of any length.",
  [O+"em.cc:cl_em::read", O+"em.cc:cl_em::write"]+OX)
p("Extended MISC16: the stack",
  "n words moved to [--P] come back from [P++] in the opposite order; P is then where it was, and nothing but the n words below P and the targets has changed.",
  "all n, all values, all places of the program, the words and the stack",
  "n is unbounded but for memory.",
  [O+"em.cc:cl_em::read", O+"em.cc:cl_em::write"]+OX)
p("Extended MISC16: looking does not change the machine",
  "Showing the registers or the text of an instruction leaves A, P and memory as they are.",
  "all states and instructions",
  "All states and all instruction words.",
  [O+"em.cc:cl_em::print_regs", O+"em.cc:cl_em::dis_comment", O+"misc16.cc:cl_misc16::dis_comment", O+"oisc.cc:cl_oisc::print_acc"])
p("Ultimate RISC: programs",
  "An instruction does to the accumulator, the flags N, Z, O, C, PC and memory what the table of the Ultimate RISC says, whether or not somebody has looked at the registers.",
  "all states, all instruction words, all programs, any number of displays of the registers before",
  "All states and words, and histories of programs and displays.",
  [O+"urisc.cc:cl_urisc::print_regs", O+"urisc.cc:cl_urisc::read", O+"urisc.cc:cl_urisc::write", O+"urisc.cc:cl_urisc::add", O+"urisc.cc:cl_urisc::init_alu"]+OX)
PB="src/sims/pblaze.src/"
p("PicoBlaze: programs",
  "A program for KCPSM3 or KCPSM6 of any length does to the registers, the flags, the scratch pad, the stack of return addresses, the program counter and the ports what the user guide of the processor says, one step for each instruction.",
  "all states, all programs of the instructions of the guides, all inputs, any number of instructions",
  "All states and operands, inputs that change, programs of any length.",
  [PB+"pblaze.cc:cl_pblaze::exec_inst", PB+"inst.cc:cl_pblaze::inst_add", PB+"inst.cc:cl_pblaze::inst_call", PB+"inst.cc:cl_pblaze::inst_return", PB+"stack.cc:cl_pblaze::stack_push", PB+"stack.cc:cl_pblaze::stack_pop", PB+"glob.cc:disass_pblaze6", PB+"glob.cc:disass_pblaze3"])
p("PicoBlaze: interrupts",
  "A request that comes while interrupts are enabled saves the flags and the address of the next instruction, disables interrupts and goes to 0x3FF; RETURNI, after a routine of any length that left what was saved alone, goes back to that address with those flags. Without a request, or while they are disabled, nothing happens.",
  "all states, all addresses, all routines",
  "The interrupt can come anywhere and the routine is any program.",
  [PB+"pblaze.cc:cl_pblaze::do_interrupt", PB+"inst.cc:cl_pblaze::inst_returni", PB+"stack.cc:cl_pblaze::stack_push"])
p("PicoBlaze: the text of an instruction",
  "The disassembled line of a word of a program names the instruction that the processor executes, with its condition, its registers and its numbers.",
  "all instructions of KCPSM3 and KCPSM6 with all operands",
  "All instructions and operands.",
  [PB+"pblaze.cc:cl_pblaze::disass", PB+"pblaze.cc:cl_pblaze::get_disasm_info", PB+"glob.cc:disass_pblaze6", PB+"glob.cc:disass_pblaze3"])
