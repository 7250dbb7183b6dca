# Formal model of ucsim (danieldrotos/ucsim) in Lean 4

## Trusted base

* Lean 4.33.0's kernel (and the elaborator only in so far as it produces the
  statements one reads).  Axioms used: at most `propext`, `Classical.choice`,
  `Quot.sound` (checked with `#print axioms` for every theorem in MANIFEST.json
  by `tools/axioms.sh`).  No own axioms, no native code evaluation.
* The reading of the C++ text in /repo by which the model was written: nothing
  is executed.  Every model definition cites file and lines.
* C++ assumptions used by the model: `unsigned` is 32 bit, `unsigned long` 64
  bit, `char` 8 bit, two's complement, little-endian host (the code itself
  stores u16/u32 through byte pointers: mem.cc 964-1044), malloc succeeds.
* Undefined behaviour (out of bounds indexing of a C array, null dereference,
  division by zero, dangling pointer) is a distinct outcome in the model
  (`none` / `.ub`), never assumed away.

## Layout

    lean/Verif/Core/*.lean     models of src/core (no theorems but small lemmas)
    lean/Verif/S51/*.lean      model of the 8051 simulator (src/sims/s51.src)
    lean/Verif/Spec/*.lean     specifications, independent of the model
    lean/Verif/Proof/*.lean    lemmas
    lean/Verif/Props/*.lean    the property theorems (named in MANIFEST.json),
                               their `_false` witnesses and the examples that
                               meet their hypotheses
    tools/                     generators of properties.jsonl and MANIFEST.json,
                               axioms.sh (prints the axioms of every claimed
                               theorem), seed.py (seeded bugs)
    seeded/LOG.jsonl           outcome of every seeded bug

Machine integers: addresses (`t_addr`, u32) and bytes are natural numbers with
the wrap `% 2^32` written out where the code can wrap; values (`t_mem`, u32) on
which the code does bit operations are `BitVec 32` / `BitVec 8`.

## What is modelled

| module | code |
|---|---|
| Core/Mem | mem.cc: chips (byte storage, `def_data`), cells of 1/2/4 bytes and bits, masks, flags, the dummy cell, address spaces, errors, get/set/read/write/download |
| Core/Decoder | mem.cc: address decoders, activate / undecode_area / split / shrink_out_of / destructor, the decoder list |
| Core/Banker | mem.cc: banker (init, add_bank, activate, selector operator), bander |
| Core/MemMisc | mem.cc: get_slot/is_slot, inc_address, validate_address, search_next, operator arrays; cmd_uc.cc fill; cmd_mem.cc where |
| Core/Pobj | pobj.cc: cl_list, cl_sorted_list |
| Core/Var | var.cc, utils: variable list with both indices, label width |
| Core/Brk | brk.cc, uc.cc, cmd_bp.cc: fetch and event breakpoints, hit counts, commands break/tbreak/delete/clear, event queue |
| Core/Hist | hist.cc: execution history |
| Core/Ticker | uc.cc, cmd_timer.cc: tick, timers (counters), timer command |
| Core/Sim | sim.cc, uc.cc, cmd_exec.cc, simif: step/run/stop and the step, time and cycle limits over an arbitrary controller |
| Core/File, Hex, S19, SetRom | uc.cc loaders read_hex_file, read_s19_file, read_omf_file over a file as a list of bytes (feof/fgetc semantics), set_rom, mem.cc dump_i |
| S51/State, Inst, Step, Dis | uc51.cc, arith/bit/inc/jmp/logic/mov.cc: 256 opcodes over iram/sfr/xram/rom/bits, register bank cache, parity, tick, do_inst, do_interrupt, accept_it, idle and power-down, dis_51 lengths. Peripherals are a parameter `Hw` (arbitrary read/write/tick functions that may not write CPU registers, as in the code) |
| S51/Timer | timer0.cc, timer1.cc, the P3 pins of port.cc: as an instance of `Hw` around arbitrary other devices |
| S51/Xint | interrupt.cc (external interrupts 0 and 1), the P3 pins: as an instance of `Hw` around arbitrary other devices |
| S51/Reset | uc51.cc/uc52.cc reset and clear_sfr, uc.cc reset; the reset of other devices is a parameter |
| Core/Expr | cmdpars.y: the grammar as derivation trees, the semantic actions in the order of an LR parser, over arbitrary memories; bison's choice among several derivations is not modelled |
| Core/Lex | cmdlex.l: flex's longest match over all rules; the lookup of names and escapes in character literals are parameters |

| S51/Next | cmd_exec.cc `next`, the is_call flags of s51 |
| I80/Inst, Table, Step, Dis | i8085.src: the 8080 and the 8085: all opcodes (Table.lean is generated from inst.cc, decode.h, glob.cc by tools/gen/i80.py), flags, ticks, disassembler. Interrupts, ports and SIM/RIM are empty functions in the code |
| S51/Serial | s51.src/serial.cc and the part of sim.src/serial_hw.cc it uses: SBUF, SCON, PCON, bit clock, input with line end conversion and flow control (not: terminal menu, sockets, 9th bit) |
| S51/Timer2, S51/Baud | s51.src/timer2.cc (8052: capture, reload, up/down, baud; not: clock-out mode, the switching of the EXF2 interrupt source) with its view of port 1 (port.cc); timer 2 and serial line together (inform_partners) |
| Fio/Dev, Fio/Console | utils.src/fio.cc, fuio.cc: ring buffer, reading from the operating system (an oracle), input_avail, read, eof in raw mode; cmd.src: read_line and proc_input of a console (not: sockets, frozen consoles, what a command does) |
| Fio/Edit, Fio/Tty | utils.src/fio.cc cl_f in cooked mode (process, process_esc, process_csi, process_telnet), cl_history; echo as terminal operations (not their escape sequences, no colours); a console on a terminal (not: closing of the terminal, sockets) |
| Simif/Cmds, Simif/Model | sim.src/simif.cc: command objects, parameters, answers, read/write of the cell, all 16 commands (simifcl.h); the input file is Fio/Dev; effects on the simulator are recorded as events; configuration cells (conf_op) not modelled |
| M65/Inst, Table, Step, Dis | mos6502.src: the 6502: all opcodes (Table.lean is generated from decode.h, glob.cc by tools/gen/m65.py), operands, flags, ticks, IRQ/NMI/BRK, RTI, reset, disassembler, `next` |
| Z80/Inst, Table, DisTable, Step, Dis, Reset | z80.src: the Z80 (CPU_Z80): all opcodes of all prefixes (tables generated from inst*.cc and glob.cc by tools/mkz80.py), flags as the macros of z80mac.h compute them, ticks, ports as an input function and the last byte sent. Not: interrupts (the code has none for the Z80 but the flip-flops), Z80N, Z180, Rabbit, eZ80, R800, GB80 |
| Cmd/Split, Cmd/Args | cmd.src/command.cc, newcmd.cc, cmdutil.cc, cmd_set.cc, sim.src/arg.cc: cl_cmdline (split, shift, expansion, redirections), search of commands, super commands, proc_input with `;` and repetition, meaning of arguments, data lists, `set memory`; commands are numbers in a tree, what they do is not modelled (except those of other rows). Text is a list of characters (bytes); names of variables and memories are tables. Not: $ expansion results, `commands` texts, the console's own state, listings |
| Core/Dump | sim.src/mem.cc cl_memory::dump (dump_finished), dump_s, dump_b; cmd.src/cmd_uc.cc cl_dump_cmd (defaults of addresses); output is a list of lines (address, name, values), not formatted text; the names at an address come from a function, in the order cl_vars_iterator yields them (assumed: whole locations before bits, Spec.Names); reads are of a fixed function. Not: dump_i (Intel hex, C32), characters at the end of a line, colours |
| H08/Step, DisTable, Dis | m68hc08.src: cl_hc08 and cl_s08 (M68HC08, HCS08): all opcodes, flags and ticks as in inst.cc, hc08mac.h; reset; disassembler with the tables of glob.cc (generated). Not: stack operation records and sp_limit errors, the 7 segment display, counters of memory accesses |
| H08/Mmu | m68hc08.cc cl_mmu, cl_9s08: memory map, linear pointer, pages, CALL, RTC, reset of the page, listing lengths |
| I48/Step, DisTable, Dis | i8048.src: the 8048 (cl_i8048 with cl_i8020): arith.cc, branch.cc, move.cc, inst.cc, bus.cc, ports and expander, timer.cc, external interrupt (i8048.cc), reset, disassc, decode.h (generated) |
| Avr/DisTable, Step, Dis | avr.src: exec_inst with all member functions (arith_inst.cc, logic_inst.cc, bit_inst.cc, move_inst.cc, jump_inst.cc, inst.cc), stack, ticks, memory as make_memories leaves it (0x80 cells, the rest one shared cell), disass with the table of glob.cc (generated), inst_length, is_call. Not: the port element (does nothing), the display, names of program addresses in listings |
| Vcd/Model | vcd.cc: variables (add_var, del_var and the commands), recording (report, write, start, pause, stop), playing (tick, read_word); cells of mem.cc (get, set, write, bit cells). Times are whole units of the timescale, exact; the header, the timescale and the start time shift are not modelled, nor the pipe to a viewer |
| P15/Step, P15/Dis | p1516.cc, p2223.cc: exec_inst of both CPUs (conditions, ALU, loads and stores, calls, extended group, special registers), reset, set_PC, do_inst of uc.cc; glob.cc: both tables of the disassembler and the search in them. The rom space is plain memory (mapped peripherals are not modelled); the formatting of operands is not modelled, it is what Spec/P15Dis and Spec/P22Dis call the arguments |
| Pdk/Step, Pdk/Sys, Pdk/Dis, Pdk/Hw | pdk13.cc, pdk14.cc, pdk15.cc: execute of the three instruction sets; inst.cc; pdk.cc: the FPPs and their turns (exec_inst, set_fppen, reset), get_dis_entry and disassc; glob.cc: the three tables; t16.cc; wdt.cc. Not: pdk16, the oscillators (their counts are given), the ports, stack statistics, the commands of the debugger that set act and nuof. T16 and the watchdog (Pdk/Hw) are modelled apart from the instructions, which share only their counters |
| Oisc/Misc16, Oisc/Em, Oisc/Urisc | oisc.cc: exec_inst, disassc, cl_op_pass; misc16.cc, em.cc, urisc.cc: read and write of the special cells, the arithmetic, the texts of operands, what displays do to the state. The cells of the UART are plain memory; words of rom are 16 bits; nested indirect accesses of em.cc are followed 32 times |
| Pb/Table, Pb/Step, Pb/Find, Pb/Text | pblaze.src: glob.cc (both tables), inst.cc, stack.cc; pblaze.cc: exec_inst, reset, do_interrupt, disass. Inputs are a function of port and clock; the files of inputs, outputs and states, the displays and the console commands are not modelled |

Not modelled: the console (except input, C78-C83), sockets, what the commands do (except
the commands named above), the GUI/interface hardware, real time (C30), threads
(there are none), memory allocation failure, other simulators than s51,
i8085, mos6502, z80, m68hc08, avr, p1516, pdk, oisc, pblaze and i8048 (of pdk only pdk13, pdk14 and pdk15; of i8048 only the 8048 family, not 8021, 8022, 8041; of mos6502 also not the 65C02, 6510, 65CE02 and HuC6280), uc52 and later derivatives, PCA, watchdog, floating point output.

## Properties: model and proof plan

See MANIFEST.json for the state of each and its exceptions.

| id | what is modelled | how it is proved |
|----|------------------|------------------|
| C01-C05, C42 | byte-level storage of chips, the shared `def_data` word, cells (pointer, mask, width, flags), address spaces incl. dummy cell and error list | algebra of little-endian load/store, lifted to the space; histories by induction |
| C06-C07 | decoder list, activate / undecode_area / split / shrink_out_of / destructor | invariant (disjoint + sound + complete w.r.t. cell map), induction over histories |
| C08 | banker init/add_bank/actual_bank/activate and the selector operator | invariant over histories of writes; UB for index outside the bank table |
| C09 | bander activate loop | closed form of the loop by induction on n |
| C10 | get_slot/is_slot | arithmetic; false for 1 and 2 byte chips: negation and the part that holds |
| C11 | inc_address/validate_address on u32 | modular arithmetic; false at one address |
| C12, C44 | search_next, where, fill loops | loop invariant |
| C13, C43 | operator arrays, event breakpoint operators | list refinement |
| C14-C15 | cl_list / cl_sorted_list | refinement to List; binary search loop invariant for any comparison that is a total preorder |
| C16-C18 | cl_var_list with both indices and the cached maximum | refinement to a finite map by induction over histories |
| C19-C23, C45 | brk_coll, cell flag, make_new_brknr, do_hit, commands | invariant over command histories, refinement to a list of breakpoints |
| C24 | cl_exec_hist ring | refinement to bounded run-length list |
| C25-C29 | text formats: dump_i, read_hex_file, ReadInt (strtol on two characters), s19, omf | parser/printer round trip over lists of characters; loops as fuel-free relations "file ends normally with these stores" |
| C30 | cl_uc::tick and the counter table | closed form by induction |
| C31 | cl_sim::start/step/stop counters | induction on n; instruction execution is an arbitrary oracle |
| C32, C46 | do_interrupt / accept_it / reti with it_levels stack | invariant over histories of instructions, interrupts and writes from outside |
| C33-C40, C49 | the 8051 instruction set | per instruction, case analysis over opcodes, bit-vector algebra |
| C41, C47, C48 | timers 0/1 as devices | invariant (decoded mode bits agree with registers), closed form for n cycles |
| C50-C51 | the whole instruction set against a second machine (Spec/S51Isa) written from the manual only | simulation relation, one lemma per instruction; programs by induction on the number of instructions |
| C52-C54 | derivation trees of the grammar against expressions with C's precedence table and an evaluation over mathematical integers (Spec/Expr) | a deterministic reader that every derivation agrees with (so the tree is unique); induction on trees for the values |
| C55-C56 | the scanner against a relation that spells tokens (Spec/Lex) | longest match per kind of token, induction on the spelled text |
| C57 | external interrupt logic as a device | invariant (mode bits and last pin level agree with TCON and port), induction on histories |
| C58 | reset on any state | closed form of each part of the state after the register writes; equality of two reset states |
| C59 | do_inst in Idle/PowerDown | induction on the sleeping time |
| C60-C63, C65 | 8080/8085 against a second machine written from the manual (Spec/I80), assembler syntax (Spec/I80Asm), clocks | per instruction, BitVec algebra; tables by kernel evaluation over all 256 opcodes; programs by induction |
| C66-C70 | 6502 against a second machine written from the manual (Spec/M65; exceptions in Spec/M65Diff), assembler syntax (Spec/M65Asm), clocks | per instruction on `abs` of the state, BitVec algebra; tables by kernel evaluation over all 256 opcodes; programs by induction; numbers by induction on their length |
| C71-C74 | the serial line as a machine over histories of events (accesses, cycles, overflows, input) | invariants over histories: sent ++ pending = written; time counted = units of the history; received ++ in flight ++ converted rest of the input is constant; one token (able, available, unread) for flow control |
| C78, C79 | cl_f over an arbitrary sequence of answers of the operating system; the console above it | the ring is a queue (items), buffered ++ unread = what is still to come; lines handed over ++ scan of what is to come is invariant, a measure decreases with each answered poll |
| C80-C83 | the editor as a step function on any byte; the console above it | refinement: the C string and cursor represent (before, after) of a session; each key's effect on line, screen and history is a lemma (Eff), arbitrary bytes by case analysis of process_esc with an invariant on the escape buffer; delivery: the lines emitted do not depend on the ring (withRing), a measure decreases with each answered poll |
| C84, C85 | the interface as a device (read, write of the cell); documented commands and a machine of three phases in Spec/Simif.lean | refinement: relation between command objects and phase kept by each access; then induction over the list of commands (C84) or accesses (C85); resync by a measure (missing arguments, length of the answer) |
| C86-C91 | Z80 against a second machine written from the manual (Spec/Z80: regular decoding by bit fields, flags by arithmetic on integers; exceptions in Spec/Z80Diff), assembler syntax (Spec/Z80Asm) | per instruction on `abs` of the state; decoding by kernel evaluation over all opcodes of each prefix; programs and blocks by induction |
| C92-C95 | a grammar of what users write (Spec/Cmd: items, separators, ends) with its meaning; meaning of data and places (Spec/Args); memory by Spec/Mem | induction on the list of written items (split), on the list of commands (sequence), on the path of subcommands; `set memory` as a list of writes, then the history theorem of C01 |
| C96-C99 | the loop of dump as a machine (Core/Dump) over an abstract memory (start, size, width, read function, names at each address, lengths of instructions); what has to be shown as relations on lists of lines (Spec/Dump), strings by the syntax of C | induction on the locations left; one step of the loop is a line; repetition by induction on the number of dumps with the start of the next one; strings by induction on the bytes |
| C162 | disass on the tables (Pb/Text) against the texts an assembler reads (Spec/PbText) | the templates are taken apart once, then the operands of the word |
| C160, C161 | one step of KCPSM3 and KCPSM6 (Pb/Step) against their guides (Spec/Pb: instructions, codes, effects), the stack as the list of addresses that wait | the table is found by code (disjoint entries), one lemma for each kind of instruction, programs by induction; what differs from the guides is shown by witnesses |
| C151-C159 | one step of the three one-instruction machines (Oisc/*) against their tables (Spec/Misc16, Spec/Em, Spec/Urisc), memory from 16 (below 0xFFF0) on by a view | by entry of the table; programs, long shifts, pushes and pops by induction; displays as steps of the state |
| C138-C150 | one step of a PDK13, PDK14 or PDK15 processor (Pdk/Step) against the tables of instruction codes and texts (Spec/Pdk, Spec/PdkDis); the chip with any number of processors (Pdk/Sys); T16 and watchdog against Spec/PdkHw | by entry of the tables for all words (entries are pairwise apart); chains, balanced programs, turns, runs of ticks by induction |
| C127-C137 | one step of the P1516 and P2223 (P15/Step) against tables of named operations (Spec/P15) and of what the texts of the disassembler name (Spec/P15Dis, Spec/P22Dis) | arithmetic on naturals and integers; by operation and by entry of the tables for all words; chains by induction over the number of words |
| C124-C126 | the dump as a list of words (Vcd) against a reader of value change dumps (Spec/Vcd) | the file is the encoding of a list of records; invariant of recorder and reader by induction over histories; later records do not change what was read; the player on records, two ticks are one; variables by invariant |
| C117-C123 | the AVR (Avr) against a second machine written from the AVR instruction set manual (Spec/Avr); known differences in Spec/AvrDiff | decoding by kernel evaluation over all 65536 words (tables split by the high byte); one lemma per instruction on `abs` of the state; programs by induction; numbers of any size by induction on bytes; calls over an arbitrary subroutine |
| C108-C116 | the 8048 (I48) against a second machine written from the MCS-48 manual (Spec/I48, assembler notation Spec/I48Asm); known differences in Spec/I48Diff | one lemma per instruction, programs by induction; calls by induction on nesting; timer closed form by induction on clocks; the dead timer interrupt by an invariant of all reachable states |
| C105-C107 | 9S08 memory management unit, CALL, RTC (H08/Mmu) against the manual's chip with 17 bit extended addresses (Spec/H08Mmu) | refinement of every access, then histories by induction; blocks by induction on their length; CALL/RTC by composition over an arbitrary subroutine |
| C100-C104 | M68HC08/HCS08 against a second machine written from the manuals (Spec/H08: opcode map, modes, flags by integer arithmetic; exceptions in Spec/H08Diff), assembler syntax (Spec/H08Asm) | per instruction on `abs` of the state, decoding by kernel evaluation over all opcodes; programs by induction; clocks by exact equality (iff) with the manual's tables |
| C75, C76 | timer 2 as a machine over histories of events; the manual as a function of one cycle (Spec/Timer2) | one-cycle simulation in every reachable state (members agree with T2CON: invariant), edges pending = falls of the level since the last cycle; closed form of n counts by induction |
| C77 | both devices in one machine | the joint history is split in two; C72 and the closed form of the overflows composed |
| C64 | the run from `next` to its temporary breakpoint, as a relation on the executions of the core | the first return to the address after the call, for any subroutine that keeps the stack (C36) |

## Where the code does not do what the property says

Each entry that contradicts a property is a `_false` theorem (see MANIFEST.json).

*Memory.* A space decoded to a chip of smaller elements lets a write spill into
the neighbour (C02). `is_slot`/`get_slot` are not inverse for 1 and 2 byte
elements (C10). `validate_address` misses start+size (C11). Search of memories
that do not start at 0 (C12). Null operator array (C13). Fill up to 0xffffffff
never ends (C44). Redefining the active bank, masks with holes (C08). Bit banding
with more than 8 bits per element (C09). Writing to a banked *chip* directly
bypasses the switch (not modelled).

*Lists, variables.* A list of 8192 items is overrun by the next add (C15, C16, C30).
Addresses above 2^31 break the address index (C17). Replaced names leave a stale
label width (C18). `cl_vars_iterator::chip_i` is uninitialised.

*Breakpoints.* Read event breakpoints on peripherals return the raw cell (C43).
Delete outside of code memory does nothing or hangs (C22). Selector writes appear
as reads (C23). Temporary event breakpoints are never removed (C45). History
listing with 0 or a negative count reads outside of the array (C24).

*Simulation control.* Writing the limit through simif restarts step counting, a
stale stop_at_time stops later runs (C31). `del_counter(int)` deletes counter 0's
entry for some arguments (C30).

*HEX.* (a) after loading into any memory wider than 8 bits location 0 is
overwritten with the leftover word (c27_word0_false); (b) the base of type 4
records is not scaled for wide memories; (c) 17-24 bit memories: address/3 but
4-byte words; (d) type 2 records ignored; (e) leftover odd bytes are carried into
the next record; (f) an end record with a bad checksum ends loading; (g) an
altered length byte may be accepted; (h) non-hex characters are accepted; (i)
files of fewer than 2 bytes, or without end record and trailing character, hang;
(j) a dump of addresses >= 0x10000 cannot be reloaded. `read_hex_file(con)` uses
an uninitialised memory pointer; check mode triggers read breakpoints; set_rom
stores into `rom` even if another space was named (read, not modelled).

*S-records.* The last line without newline is dropped; wrong digits are 0; wide
memories' addresses are divided by the wrong number; odd trailing bytes are read
past the record; widths above 32 loop forever. *OMF.* Data is stored 3 too high;
0xff near the end of the file is stored as 0; the checksum is ignored.

*8051.* (1) 0xA5 jumps to a stale instPC+1 (C37). (2) In Idle the cycle counter
runs but the peripherals do not (C41). (3) The cycle of accepting an interrupt is
not seen by the timers. (4) After waking from Idle one instruction executes before
the interrupt. (5) Idle is reported as a self jump. (6) Counters count rising edges
(C48). (7) A branch to 0x10000 does not wrap (C40). (8) MOVC reads above 64K
unwrapped (C50). (9) MOV A,ACC does nothing (as documented: no valid instruction).
(10) PUSH SP pushes the old SP (C50). (11) P can be overwritten through PSW (C38).
(12) Polling order beats priority (C46). (13) Interrupts wake from power-down.
(14) Edges accumulate while GATE is closed; writes to TCON/TMOD drop pending edges.
(15) Timer 1 still needs TR1 when timer 0 is in mode 3 and (16) still sets TF1.
(17) Accepting an interrupt counts one cycle (hardware: two). (18) MOVX @Ri takes
the high address from the pins of P2 instead of its latch.
- C52: `x . 2 == 1` is ambiguous in the grammar.  C53: `&&`, `||` and `?:` evaluate all operands (so
  `x != 0 && 10 / x` still divides by zero and `0 && (x = 1)` assigns); results are cut to 32 bits (a condition
  `1 << 32` is false); `x = 1` reads x twice.  `&x.2` yields 4294967295.  A variable that names bits yields the whole
  location (the scanner never returns PTOK_BITS).  C54: `x[7:4] = 5` clears the field, `x[3:3] = 8` changes bit 6.
  C56: everything after an unknown name is silently ignored; `x.n` is `x`.
- C57: a level activated request stays when the pin rises again.  C59: devices do not run in Idle, so a timer
  interrupt never ends it; reset does not write T2MOD, so timer 2 keeps DCEN/T2OE (read, not modelled).
- C60-C65 (8080/8085): RST 2, 3, 6, 7 do nothing (mask 0x28 instead of 0x38); ADC/SBB form `v + carry` in a byte first,
  so the carry of FF + 1 is lost; AC of subtractions; ANA sets AC as on the 8085; word accesses at 0xffff do not wrap;
  POP PSW on the 8080 keeps the undefined bits; DAA; taken conditional jumps count 0 clocks on the 8080, XCHG 5, MOV A,H
  5 on the 8085; clocks are looked up by reading the opcode again after the execution; LDHI/LDSI load from memory;
  JNX5/JX5 exchanged; DSUB with BC = 0 sets carry; XRA is shown as XOR; lengths of processor specific instructions;
  `next` knows no call of these CPUs, and of the 8051's not opcode 0x11.
- C66-C70 (6502): pointers at zero page FF and JMP (xxFF) read the next page; RTS does not wrap; NOP 1, JSR 3, BRK 8
  clocks; STA abs,Y and STA (zp),Y count the page crossing of a read, STA abs,X and read-modify-write count it twice;
  interrupts are nested by fixed levels of service, so NMI, IRQ (after CLI) and BRK are not taken inside of handlers, and
  NMI is level activated; (zp),Y is shown as (zp,Y), zero page addresses with four digits; undefined opcodes have length 0.
- C78, C79 (input): the byte 0xff is lost, as it is stored as -1 and that means "empty"; behind it the end of file may be seen early;
  read_line ignores a line end that differs from the previous one even when text is between them.
- C84, C85 (simulator interface): stop answers `s` although documented without answer, and the next command is lost if that is not read; getlimit and cmdinfo send another length than documented; a byte 0xff of the input file is answered by an uninitialised variable; `@` does not reset a waiting or answering interface.
- C86-C88 (Z80): ADC/SBC (8 and 16 bit) form H from `operand + carry` cut to 4 (12) bits; rotations take P/V from A; IN r,(C) only ever sets
  S and Z, RRD/RLD set no flags; word accesses at FFFF and the stack do not wrap; RETN and RETI clear IFF2; CPI/CPD change C, CPIR clears H;
  CPD counts HL up; CPDR stops at the byte found; OUTI/OTIR send to port B; block i/o leaves N; CALL reads its operand after the push;
  LD dd,(nn) with ED is shown as `nnnn` and two bytes, ADD HL,DE as three bytes; R counts prefixed instructions once; reset keeps I and R;
  SET b,(IX+d) to L goes to H (undocumented; read, not claimed); JR leaves the memory at its ends; clocks of INC/DEC (HL), BIT b,(HL), OUT (C),E; clocks are looked up from the bytes after execution.
- C92-C95 (commands): a word or string ending in a backslash, a word ending in `$`, an unterminated quoted file name are read past their end; numbers need not end where they should (12ab), large ones saturate; a wrong argument is dropped and the rest moves up; `;` inside a string ends a command with subcommands; `quit;pc` does not quit; a blank line forgets the command to repeat; a line entered during a run only stops it; names as data store uninitialised memory; characters from 0x80 on are sign extended; data beyond the end of a memory are dropped silently; setting 32 bits at once shifts by 32.
- C160-C162 (pblaze.src): PCmask is 0x3ff for KCPSM6, too; STAR sX,sY writes sY of the other bank; OUTPUTK puts out the upper four bits of its constant; an address
  beyond the scratch pad does not wrap; COMPARECY with 0xFF and C; a call at 0x3FF and an interrupt before the instruction at 0 come back to 0x1000;
  the texts of CALL C and CALL Z of KCPSM6 are interchanged (C162); after an overflow of the stack KCPSM6 is reset and then jumps (read, not claimed).
- C151-C159 (oisc.src): the MISC16 text of source 3 says PC+8; showing an instruction of the extended MISC16 that reads [P++] or [A++] (or the
  registers, when PC is there) moves P or A; the Ultimate RISC has no arithmetic unit until the registers are shown, then each display makes
  every operation happen once more; its PC cell is never wired, so there are no jumps; its overflow flag is set by 1 + 1.
- C138-C150 (pdk.src): nadd a,m never sets C; with SP 255 pushaf/popaf loses F; a skip at the word 4094 leaves the 12 bits of PC; ret and taken skips count one cycle; FPPEN with only bits of missing processors hangs the simulator; reset keeps FPPEN, SP and the turn, CLKMD reads 0 and the watchdog is off; the disassembler does not show the targets of call and goto (PDK15), some memory bit operands, comp m,a (PDK14), subc m (PDK13), and shows reti, putchar, cneqsn (PDK13), ldtabl which are not executed; T16 misses its interrupt when one instruction takes 2^b or more counts and never counts pins
- C127-C137 (p1516.cc, p2223.cc, glob.cc): DIV of the P1516 does nothing and MUH is unknown to its disassembler; BTST of the P2223 overwrites its register (missing break); the disassembler of the P2223 shows ret for every word with R15 and R14 in two places, no condition for condition 15 (nothing is executed), push/pop with any offset, OR with &; after an invalid instruction PC and R15 differ and the next step skips it; clocks are counted at a breakpoint
- C124-C126 (vcd.cc): changes by cl_memory_cell::set and writes through a bit space are not recorded; what is recorded is the value before later operators and even if the cell is read only; a vector with the identifier 0 or 1 (variables 16, 17) is not played; vectors shorter than the variable take digits of the one before; `del` of a whole cell is never found, `del` cell high low has high and low exchanged; identifiers after the 94th are not printable
- C117 (AVR): CPI/SUBI/SBCI or the two halves of the constant; SBC, SBCI, CPC give 0 or 1; ORI/ANDI read R0-R15; ROR gives 0x80 or 0; MUL leaves Z; ADIW, NEG, ADC flags; SBIW of 32 and more; MOVW, MULS, MULSU, FMUL*, LPM Rd do nothing; LPM takes a byte address for a word address; BREAK is SLEEP, SLEEP is not obeyed; only 0x80 bytes of data memory; RJMP to 0x10000 leaves PC there
- C118 (AVR): a stack above 0x7f returns to a wrong address
- C120 (AVR): SBC
- C121 (AVR): IJMP 1, LDS/STS 3, skip over two words 2, MULS.. 1, LPM Rd 1 cycles
- C122 (AVR): SBIC/SBIS over a two word instruction stop inside it; skip over MOVW, MULS, LPM Rd.. is an invalid instruction
- C123 (AVR): the first register of every listing is r0, the second that of the first; RCALL, ICALL no calls; MOVW, MULS.., LPM Rd unknown
- C108 (8048): ADDC A,@Rr loops for ever; DJNZ Rn decrements R7 and always jumps; a conditional jump whose second byte is the last of a page goes to the next page; SEL MB1 is used for jumps in interrupt routines; MOVP3 in the upper bank reads page 11; MOVD/ORLD/ANLD clear the upper half of P2; @Rr beyond the data memory writes the shared undecoded cell
- C110 (8048): T counts every 512 clocks instead of 160; falls of T1 are never counted
- C111 (8048): the overflow of the timer never causes an interrupt
- C112 (8048): ANL A,# one cycle, ENT0 CLK and MOV @Rr,A two cycles
- C116 (8048): ADDC A,Rn/@Rr listed as ADC, ANLD as ANL; ENT0 CLK listed with two bytes, ANL BUS,# with one; CALL is not a call for `next`
- C107 (9S08): instructions other than CALL and RTC are listed as if they began one byte later; HCS08 instructions (LDHX/STHX/CPHX extended, indexed, stack) are refused because the type is compared with CPU_HCS08
- C100-C104 (M68HC08): DAA does not change A; SWI clears I; RSP sets the high byte of SP; DBNZ changes N, Z, V and reads its offset after the store; WAIT and STOP go on; stores at 10000 and above are lost, jumps and branches leave the 64K; after reset I is clear and the first step overrides PC; the M68HC08 takes the cycles of the HCS08 (96 opcodes differ, 27 on the HCS08); BSR and DBNZ opr,rel shown with a direct address, three wrong lengths
- C96-C99 (dump): 0 values on a line loops for ever; a dump down to 0, or down from above or to below the memory shows nothing; one location left over after full dumps is never shown by repeated dumps; the limit of ten lines is missed at a location with two names; dump /b reads one location too many; octal escapes of dump /s are not read by set memory (proc_escape).
- C80-C83 (command line): characters f1-f6, ee are taken for cursor keys (char is signed); Enter as CR after a line ended with LF is
  ignored; an unknown CSI sequence swallows text up to the next A-F, H or ~; the newline of a 1023 character line is lost;
  the line being typed is lost at Up; edited history lines stay edited; ESC [ + 98 characters overruns esc_buffer (100 bytes);
  an unknown mouse button calls isprint() with a value above 255.
- C75, C76 (timer 2): C/T2 is ignored in capture and reload mode; a write of T2CON (even clearing TF2) leaves the up/down mode,
  clearing DCEN does not; P1.6 is toggled instead of EXF2; RCAP2=0; edges at T2EX seen with EXEN2=0 are kept.
- C71-C74 (serial line): mode 2 uses 32/16 clocks a bit instead of 64/32; timer 1 and timer 2 are both counted; _divby
  stays 16 after timer 2 was the generator; CR LF LF loses a line end; keys are dropped while one waits; reset does not
  reset the input side (cl_serial_hw), so flow control may block for ever; setting the escape character through the
  configuration falls through (read, not modelled); the 9th bit is neither sent nor received.
