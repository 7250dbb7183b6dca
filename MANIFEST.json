{
 "claims": [
  {
   "property": "C01",
   "status": "proved",
   "theorems": [
    "Ucsim.Props.c01_write_read",
    "Ucsim.Props.c01_last_write",
    "Ucsim.Props.mem_history"
   ],
   "note": ""
  },
  {
   "property": "C02",
   "status": "partial",
   "theorems": [
    "Ucsim.Props.c02_frame_partial",
    "Ucsim.Props.c02_frame_bits",
    "Ucsim.Props.c02_false_for_mixed_sizes"
   ],
   "note": "false when a space is decoded to a chip of smaller elements (witness c02_false_for_mixed_sizes); proved for equal element sizes, and for bits"
  },
  {
   "property": "C03",
   "status": "proved",
   "theorems": [
    "Ucsim.Props.c03_alias",
    "Ucsim.Props.c03_alias_targets"
   ],
   "note": ""
  },
  {
   "property": "C04",
   "status": "proved",
   "theorems": [
    "Ucsim.Props.c04_read_only",
    "Ucsim.Props.c04_download"
   ],
   "note": ""
  },
  {
   "property": "C05",
   "status": "proved",
   "theorems": [
    "Ucsim.Props.c05_out_of_range",
    "Ucsim.Props.c05_in_range"
   ],
   "note": ""
  },
  {
   "property": "C42",
   "status": "proved",
   "theorems": [
    "Ucsim.Props.c42_in_bounds"
   ],
   "note": ""
  },
  {
   "property": "C14",
   "status": "partial",
   "theorems": [
    "Ucsim.Props.c14_search",
    "Ucsim.Props.c14_add_partial",
    "Ucsim.Props.c14_history_partial"
   ],
   "note": "search is proved for every sorted list; add only below 8192 items, because adding to a list of 8192 items is out of bounds (c15_false_when_full)"
  },
  {
   "property": "C15",
   "status": "partial",
   "theorems": [
    "Ucsim.Props.c15_step_partial",
    "Ucsim.Props.c15_history_partial",
    "Ucsim.Props.c15_new_fits",
    "Ucsim.Props.c15_false_when_full",
    "Ucsim.Props.c15_false_reachable",
    "Ucsim.Props.c15_false_positions"
   ],
   "note": "false for lists that reach 8192 items (witness c15_false_reachable) and for unchecked positions of add_at and put_at (c15_false_positions); proved for everything else"
  },
  {
   "property": "C06",
   "status": "proved",
   "theorems": [
    "Ucsim.Props.c06_activate",
    "Ucsim.Props.c06_wire",
    "Ucsim.Props.c06_last_address_undecoded",
    "Ucsim.Props.c06_false_after_failed_activation"
   ],
   "note": "the test of activation accepts an area one longer than the chip has elements (c06_last_address_undecoded, allowed by the statement); outside of the quantified histories (a decoder whose activation failed stays in the list) the claim is false: c06_false_after_failed_activation"
  },
  {
   "property": "C07",
   "status": "proved",
   "theorems": [
    "Ucsim.Props.c07_truthful"
   ],
   "note": ""
  },
  {
   "property": "C08",
   "status": "partial",
   "theorems": [
    "Ucsim.Props.c08_follows_partial",
    "Ucsim.Props.c08_number_one",
    "Ucsim.Props.c08_number_two",
    "Ucsim.Props.c08_two_in_table",
    "Ucsim.Props.c08_start",
    "Ucsim.Props.c08_init_one",
    "Ucsim.Props.c08_init_two",
    "Ucsim.Props.c08_session",
    "Ucsim.Props.c08_false_redefine",
    "Ucsim.Props.c08_false_hole",
    "Ucsim.Props.c08_false_bit31",
    "Ucsim.Props.c08_false_set",
    "Ucsim.Props.c08_write_reads_selector"
   ],
   "note": "proved for masks that are runs of ones below bit 31, selectors that no other cell aliases, any number of bankers and any history of accesses and first definitions of banks; false after a bank in use is redefined (c08_false_redefine), for masks with holes (c08_false_hole, index out of the table), for masks with bit 31 (c08_false_bit31, never ends), and set/download on the selector does not switch (c08_false_set)"
  },
  {
   "property": "C09",
   "status": "partial",
   "theorems": [
    "Ucsim.Props.c09_wiring_partial",
    "Ucsim.Props.c09_bit_access",
    "Ucsim.Props.c09_session",
    "Ucsim.Props.c09_false_wide"
   ],
   "note": "proved for 1..8 bits per element; false for more (c09_false_wide: bits 8 and up are lost)"
  },
  {
   "property": "C10",
   "status": "partial",
   "theorems": [
    "Ucsim.Props.c10_partial",
    "Ucsim.Props.c10_false"
   ],
   "note": "true exactly for elements wider than 16 bits (and element 0): both directions in c10_partial; witness c10_false"
  },
  {
   "property": "C11",
   "status": "partial",
   "theorems": [
    "Ucsim.Props.c11_inc_valid",
    "Ucsim.Props.c11_inc_congr_partial",
    "Ucsim.Props.c11_false_inc",
    "Ucsim.Props.c11_validate_partial",
    "Ucsim.Props.c11_false_validate"
   ],
   "note": "inc_address is always valid but not congruent when the sum is below the start (c11_false_inc); validate_address is right for all addresses but start+size (c11_false_validate)"
  },
  {
   "property": "C12",
   "status": "partial",
   "theorems": [
    "Ucsim.Props.c12_search_partial",
    "Ucsim.Props.c12_where_partial",
    "Ucsim.Props.c12_false_start",
    "Ucsim.Props.c12_false_wide"
   ],
   "note": "proved (also for the where command) for memories from address 0; false for others (c12_false_start), undefined for words above 0xff when case is ignored (c12_false_wide)"
  },
  {
   "property": "C13",
   "status": "partial",
   "theorems": [
    "Ucsim.Props.c13_history_partial",
    "Ucsim.Props.c13_add_remove",
    "Ucsim.Props.c13_write",
    "Ucsim.Props.c13_false_null"
   ],
   "note": "deleting by breakpoint/peripheral from a cell without operators is a null dereference (c13_false_null); everything else proved"
  },
  {
   "property": "C43",
   "status": "partial",
   "theorems": [
    "Ucsim.Props.c43_transparent_partial",
    "Ucsim.Props.c43_false_hw"
   ],
   "note": "false on cells with a peripheral (c43_false_hw): the read breakpoint returns the raw cell content instead of what the peripheral answered"
  },
  {
   "property": "C44",
   "status": "partial",
   "theorems": [
    "Ucsim.Props.c44_fill_partial",
    "Ucsim.Props.c44_false_last"
   ],
   "note": "proved for ends below 0xffffffff (with it the loop never ends: c44_false_last) and spaces wider than one bit"
  },
  {
   "property": "C16",
   "status": "partial",
   "theorems": [
    "Ucsim.Props.c16_map_partial",
    "Ucsim.Props.c16_spec_last",
    "Ucsim.Props.c16_false_full"
   ],
   "note": "proved for histories with at most 8192 different names; the 8193rd writes outside the pointer array (c16_false_full). cl_var with NULL memory not modelled"
  },
  {
   "property": "C17",
   "status": "partial",
   "theorems": [
    "Ucsim.Props.c17_addr_partial",
    "Ucsim.Props.c17_bits_partial",
    "Ucsim.Props.c17_false_high"
   ],
   "note": "proved for addresses and memory ids below 2^31, bit numbers >= -1, at most 8192 names; above 2^31 variables get lost (c17_false_high)"
  },
  {
   "property": "C18",
   "status": "partial",
   "theorems": [
    "Ucsim.Props.c18_width_partial",
    "Ucsim.Props.c18_false"
   ],
   "note": "the reported length is always enough; exact only without replacements of names: c18_false shows a stale length"
  },
  {
   "property": "C19",
   "status": "proved",
   "theorems": [
    "Ucsim.Props.c19_flag",
    "Ucsim.Props.c19_commands",
    "Ucsim.Props.brk_history_partial"
   ],
   "note": "c19_flag for every history that ends normally; c19_commands also shows that histories with code breakpoints inside the memory end normally and compares with the specification"
  },
  {
   "property": "C20",
   "status": "proved",
   "theorems": [
    "Ucsim.Props.c20_unique"
   ],
   "note": ""
  },
  {
   "property": "C21",
   "status": "proved",
   "theorems": [
    "Ucsim.Props.c21_hits",
    "Ucsim.Props.c21_do_hit",
    "Ucsim.Props.hits_from",
    "Ucsim.Props.due_iff"
   ],
   "note": ""
  },
  {
   "property": "C22",
   "status": "partial",
   "theorems": [
    "Ucsim.Props.c22_delete_partial",
    "Ucsim.Props.c22_delete_any_partial",
    "Ucsim.Props.c22_false_hang",
    "Ucsim.Props.c22_false_delete",
    "Ucsim.Props.c22_false_deleteAll",
    "Ucsim.Props.c22_false_twice"
   ],
   "note": "proved for breakpoints inside the code memory; outside of it delete nr does nothing (c22_false_delete) and delete without argument never ends (c22_false_hang, c22_false_deleteAll)"
  },
  {
   "property": "C23",
   "status": "partial",
   "theorems": [
    "Ucsim.Props.c23_events_partial",
    "Ucsim.Props.c23_value",
    "Ucsim.Props.c23_false_selector",
    "Ucsim.Props.c23_false_other"
   ],
   "note": "proved for locations without peripherals and bank switchers; a write to a bank selector is reported as a read too (c23_false_selector); a breakpoint of mistyped kind is accepted and never reported (c23_false_other)"
  },
  {
   "property": "C45",
   "status": "partial",
   "theorems": [
    "Ucsim.Props.c45_temp_partial",
    "Ucsim.Props.c45_stays_partial",
    "Ucsim.Props.c45_false_event"
   ],
   "note": "proved for breakpoints on fetch; temporary event breakpoints are never removed (c45_false_event)"
  },
  {
   "property": "C24",
   "status": "proved",
   "theorems": [
    "Ucsim.Props.c24_history",
    "Ucsim.Props.c24_since_clear",
    "Ucsim.Props.c24_insts",
    "Ucsim.Props.runs_sum",
    "Ucsim.Props.c24_false_list_zero",
    "Ucsim.Props.c24_false_list_negative"
   ],
   "note": "counters as natural numbers (int overflow of one run not modelled), total modulo 2^32; listing for a positive number of elements: with 0 it prints the whole array (c24_false_list_zero), with -10001 or less it reads outside of it (c24_false_list_negative)"
  },
  {
   "property": "C30",
   "status": "partial",
   "theorems": [
    "Ucsim.Props.c30_elapsed",
    "Ucsim.Props.c30_run",
    "Ucsim.Props.c30_set",
    "Ucsim.Props.c30_del",
    "Ucsim.Props.c30_new",
    "Ucsim.Props.run_total_partial",
    "Ucsim.Props.c30_total_false"
   ],
   "note": "real time not modelled; every run that ends normally is covered; adding by a number of 8192 or more (or with no free number below) writes outside of the table (c30_total_false)"
  },
  {
   "property": "C31",
   "status": "partial",
   "theorems": [
    "Ucsim.Props.c31_step_partial",
    "Ucsim.Props.c31_stop_partial",
    "Ucsim.Props.c31_false_limit",
    "Ucsim.Props.c31_false_time",
    "Ucsim.Props.c31_false_reason"
   ],
   "note": "for an arbitrary controller; excluded: programs that restart the counting through the simulator interface (c31_false_limit) and a pending time limit (c31_false_time); user input during the run is not modelled"
  },
  {
   "property": "C33",
   "status": "proved",
   "theorems": [
    "Ucsim.S51.C33_add",
    "Ucsim.S51.C33_addc",
    "Ucsim.S51.C33_subb"
   ],
   "note": "all addressing modes, with the frame: nothing else changes; peripherals arbitrary"
  },
  {
   "property": "C34",
   "status": "proved",
   "theorems": [
    "Ucsim.S51.C34_da",
    "Ucsim.S51.C34_add_da",
    "Ucsim.S51.C34_addc_da"
   ],
   "note": ""
  },
  {
   "property": "C35",
   "status": "proved",
   "theorems": [
    "Ucsim.S51.C35_mul",
    "Ucsim.S51.C35_div"
   ],
   "note": ""
  },
  {
   "property": "C36",
   "status": "proved",
   "theorems": [
    "Ucsim.S51.c36_lcall",
    "Ucsim.S51.c36_acall",
    "Ucsim.S51.c36_ret",
    "Ucsim.S51.c36_call_ret",
    "Ucsim.S51.c36_push",
    "Ucsim.S51.c36_pop",
    "Ucsim.S51.c36_push_pop",
    "Ucsim.S51.room256"
   ],
   "note": ""
  },
  {
   "property": "C37",
   "status": "partial",
   "theorems": [
    "Ucsim.S51.c37_length_partial",
    "Ucsim.S51.c37_not_taken",
    "Ucsim.S51.c37_false_reserved"
   ],
   "note": "proved for every opcode but the reserved 0xA5, which jumps to the stale instPC + 1 (c37_false_reserved)"
  },
  {
   "property": "C38",
   "status": "partial",
   "theorems": [
    "Ucsim.S51.c38_parity_partial",
    "Ucsim.S51.c38_false"
   ],
   "note": "proved for programs that never name PSW/P as a destination; MOV PSW,#1 breaks it (c38_false), the hardware computes P"
  },
  {
   "property": "C39",
   "status": "proved",
   "theorems": [
    "Ucsim.S51.c39_reg_read",
    "Ucsim.S51.c39_reg_write",
    "Ucsim.S51.c39_bit_read",
    "Ucsim.S51.c39_bit_write_iram",
    "Ucsim.S51.c39_bit_write_sfr"
   ],
   "note": ""
  },
  {
   "property": "C40",
   "status": "partial",
   "theorems": [
    "Ucsim.S51.c40_relative_partial",
    "Ucsim.S51.c40_false_64k",
    "Ucsim.S51.c40_ljmp",
    "Ucsim.S51.c40_ajmp",
    "Ucsim.S51.c40_jmp_dptr_partial",
    "Ucsim.S51.c40_history_partial",
    "Ucsim.S51.c40_false_fetch"
   ],
   "note": "false for targets of exactly 0x10000 (c40_false_64k): PC leaves code memory and a dummy byte is executed (c40_false_fetch)"
  },
  {
   "property": "C32",
   "status": "proved",
   "theorems": [
    "Ucsim.S51.c32_nested",
    "Ucsim.S51.c32_accept",
    "Ucsim.S51.c32_taken",
    "Ucsim.S51.c32_only_reti",
    "Ucsim.S51.c32_enter",
    "Ucsim.S51.c32_leave",
    "Ucsim.S51.c32_after_reti",
    "Ucsim.S51.execInst_levels"
   ],
   "note": "the 8051 core with arbitrary peripherals and arbitrary writes from outside; other cores not modelled"
  },
  {
   "property": "C46",
   "status": "partial",
   "theorems": [
    "Ucsim.S51.c46_first_partial",
    "Ucsim.S51.c46_highest_partial",
    "Ucsim.S51.c46_false"
   ],
   "note": "the first source in polling order is taken whatever the priorities (c46_false); the highest one only if priorities follow the polling order"
  },
  {
   "property": "C41",
   "status": "partial",
   "theorems": [
    "Ucsim.S51.c41_mode0",
    "Ucsim.S51.c41_mode1",
    "Ucsim.S51.c41_mode2",
    "Ucsim.S51.c41_mode3",
    "Ucsim.S51.c41_stopped",
    "Ucsim.S51.c41_program",
    "Ucsim.S51.c41_idle_false",
    "Ucsim.S51.c41_accept_false"
   ],
   "note": "proved for the cycles the devices get, all modes, any number of cycles, and for every program that leaves the timers alone; cycles spent in Idle (c41_idle_false) and the cycle of accepting an interrupt (c41_accept_false) are counted by the simulator but not seen by the timers"
  },
  {
   "property": "C47",
   "status": "proved",
   "theorems": [
    "Ucsim.S51.c47_coherent"
   ],
   "note": "timers switched on (hw->on); with arbitrary other devices"
  },
  {
   "property": "C48",
   "status": "partial",
   "theorems": [
    "Ucsim.S51.c48_rising_partial",
    "Ucsim.S51.c48_falling_false",
    "Ucsim.S51.c48_gate_false"
   ],
   "note": "the code counts rising edges: proved for mode 1; falling edges are not counted (c48_falling_false) and edges while GATE stops the counter are counted later (c48_gate_false)"
  },
  {
   "property": "C49",
   "status": "proved",
   "theorems": [
    "Ucsim.S51.c49_inst",
    "Ucsim.S51.c49_step",
    "Ucsim.S51.c49_run"
   ],
   "note": "PC inside of code memory (see C40); the reserved opcode 0xA5 counts one cycle"
  },
  {
   "property": "C25",
   "status": "proved",
   "theorems": [
    "Ucsim.Props.c25_stores",
    "Ucsim.Props.c25_chip",
    "Ucsim.Props.c25_rom",
    "Ucsim.Props.c25_high_false",
    "Ucsim.Props.hex_hang_short",
    "Ucsim.Props.hex_hang_no_end"
   ],
   "note": "areas below 0x10000, memories of up to 8 bits (a higher area cannot be written as 16-bit records: c25_high_false); into a plain chip and into the code memory. Files of fewer than two bytes, and files without end record, never finish (hex_hang_short, hex_hang_no_end)"
  },
  {
   "property": "C26",
   "status": "partial",
   "theorems": [
    "Ucsim.Props.c26_text_partial",
    "Ucsim.Props.c26_altered_partial",
    "Ucsim.Props.c26_bad_records",
    "Ucsim.Props.c26_length_false",
    "Ucsim.Props.c26_digits_false"
   ],
   "note": "any file text: every store comes from a record in it whose checksum matches; one altered address, type, data or checksum byte is found out; an altered length byte may not be (c26_length_false); characters that are not hex digits are accepted (c26_digits_false)"
  },
  {
   "property": "C27",
   "status": "partial",
   "theorems": [
    "Ucsim.Props.c27_bytes_partial",
    "Ucsim.Props.c27_chip_partial",
    "Ucsim.Props.c27_words_partial",
    "Ucsim.Props.c27_word0_false",
    "Ucsim.Props.c27_base_false",
    "Ucsim.Props.c27_24bit_false",
    "Ucsim.Props.c27_segment_false",
    "Ucsim.Props.c27_odd_false"
   ],
   "note": "proved for memories of up to 8 bits with linear base records and for words of 16 and 32 bits at base 0; a wide memory gets location 0 overwritten (c27_word0_false), the base is not scaled (c27_base_false), 24-bit words are misplaced (c27_24bit_false), segment records are ignored (c27_segment_false), odd bytes are carried over (c27_odd_false)"
  },
  {
   "property": "C28",
   "status": "partial",
   "theorems": [
    "Ucsim.Props.c28_stores_partial",
    "Ucsim.Props.c28_chip_partial",
    "Ucsim.Props.c28_covered",
    "Ucsim.Props.c28_last_false",
    "Ucsim.Props.c28_digits_false",
    "Ucsim.Props.c28_wide_false",
    "Ucsim.Props.s19_hang_short"
   ],
   "note": "proved for text files whose lines all end with a newline; the last line of a file without newline is dropped (c28_last_false); wrong digits count as zero (c28_digits_false); wide memories get wrong addresses (c28_wide_false)"
  },
  {
   "property": "C29",
   "status": "partial",
   "theorems": [
    "Ucsim.Props.c29_shifted_partial",
    "Ucsim.Props.c29_false",
    "Ucsim.Props.c29_ff_false"
   ],
   "note": "false of every file with data: data is stored 3 addresses too high (c29_false, c29_shifted_partial); a byte 255 near the end of the file is stored as 0 (c29_ff_false)"
  },
  {
   "property": "C50",
   "status": "partial",
   "theorems": [
    "Ucsim.S51.c50_inst_partial",
    "Ucsim.S51.c50_false_push_sp",
    "Ucsim.S51.c50_false_movc",
    "Ucsim.S51.c50_false_wrap"
   ],
   "note": "proved for all states and all opcodes but 0xA5, for locations that act like memory, except: PUSH SP pushes the old SP (c50_false_push_sp), MOVC above 64K does not wrap (c50_false_movc), a relative jump to 0x10000 does not wrap (c50_false_wrap, see C40); parity flag in C38; stack pointer and @Ri within internal memory"
  },
  {
   "property": "C51",
   "status": "partial",
   "theorems": [
    "Ucsim.S51.c51_program_partial"
   ],
   "note": "interrupts disabled (accepting one is C32), no power saving, the exceptions of C50 left out, PSW not named as a destination (C38), no jump to address 0 (which may be 0x10000 instead: C40)"
  },
  {
   "property": "C52",
   "status": "partial",
   "theorems": [
    "Ucsim.Expr.c52_reads_partial",
    "Ucsim.Expr.c52_one_reading",
    "Ucsim.Expr.c52_accepts_partial",
    "Ucsim.Expr.c52_false_dot"
   ],
   "note": "proved for all texts without the bit operator \".\": x . 2 == 1 can be derived in two ways with different values (c52_false_dot); which one bison takes is not part of the model"
  },
  {
   "property": "C53",
   "status": "partial",
   "theorems": [
    "Ucsim.Expr.c53_eval_partial",
    "Ucsim.Expr.c53_eager_partial",
    "Ucsim.Expr.c55_eval_partial",
    "Ucsim.Expr.c53_condition_partial",
    "Ucsim.Expr.c53_pure",
    "Ucsim.Expr.c53_false_guard",
    "Ucsim.Expr.c53_false_skip",
    "Ucsim.Expr.c53_false_cut",
    "Ucsim.Expr.c53_false_reads"
   ],
   "note": "proved for expressions without assignments to bits or in operands C may skip, when reads have no effects; && || ?: evaluate everything (c53_false_guard divides by zero, c53_false_skip assigns), results are cut to 32 bits (c53_false_cut), an assignment reads its target (c53_false_reads)"
  },
  {
   "property": "C54",
   "status": "partial",
   "theorems": [
    "Ucsim.Expr.c54_low_partial",
    "Ucsim.Expr.c54_below",
    "Ucsim.Expr.c54_false_lost",
    "Ucsim.Expr.c54_false_outside",
    "Ucsim.Expr.c54_false_value"
   ],
   "note": "proved for fields that begin at bit 0; others lose the value (c54_false_lost) or change bits outside (c54_false_outside); the value yielded is the whole word (c54_false_value)"
  },
  {
   "property": "C55",
   "status": "proved",
   "theorems": [
    "Ucsim.Expr.c55_scan",
    "Ucsim.Expr.c55_number"
   ],
   "note": "character literals left out"
  },
  {
   "property": "C56",
   "status": "partial",
   "theorems": [
    "Ucsim.Expr.c56_known_partial",
    "Ucsim.Expr.c56_false_ignored",
    "Ucsim.Expr.c56_false_dot",
    "Ucsim.Expr.c56_false_example"
   ],
   "note": "false: an unknown name is taken for the end of the text, what follows is ignored (c56_false_ignored, for every text)"
  },
  {
   "property": "C57",
   "status": "partial",
   "theorems": [
    "Ucsim.S51.c57_coherent",
    "Ucsim.S51.c57_pins",
    "Ucsim.S51.c57_latch",
    "Ucsim.S51.c57_cycles_partial",
    "Ucsim.S51.c57_edges",
    "Ucsim.S51.c57_accept",
    "Ucsim.S51.c57_int0",
    "Ucsim.S51.c57_int1",
    "Ucsim.S51.c57_false_level"
   ],
   "note": "proved except that a level activated request is not withdrawn when the pin rises (c57_false_level)"
  },
  {
   "property": "C58",
   "status": "proved",
   "theorems": [
    "Ucsim.S51.c58_core",
    "Ucsim.S51.c58_timers",
    "Ucsim.S51.c58_xint",
    "Ucsim.S51.c58_forgets",
    "Ucsim.S51.c58_future",
    "Ucsim.S51.Tim2.c58_timer2"
   ],
   "note": "c58_core with any devices; c58_forgets and c58_future for the machine of CPU, timers 0/1 and external interrupts; c58_timer2 for timer 2 (the reset of the serial line: C73 c73_ren, C74 c74_false_reset)"
  },
  {
   "property": "C59",
   "status": "partial",
   "theorems": [
    "Ucsim.S51.c59_sleep",
    "Ucsim.S51.c59_wake_partial",
    "Ucsim.S51.c59_false_timer",
    "Ucsim.S51.c59_false_wake",
    "Ucsim.S51.c59_false_pd",
    "Ucsim.S51.c59_false_selfjump"
   ],
   "note": "sleeping proved for any devices and time; but peripherals stand still in Idle (c59_false_timer), one instruction is executed before the handler (c59_false_wake), an interrupt ends PowerDown (c59_false_pd), with selfjump stopping on Idle is never left (c59_false_selfjump)"
  },
  {
   "property": "C60",
   "status": "partial",
   "theorems": [
    "Ucsim.I80.c60_step_partial",
    "Ucsim.I80.c60_halt",
    "Ucsim.I80.c60_program_partial",
    "Ucsim.I80.c60_8080_partial",
    "Ucsim.I80.c60_noac_partial",
    "Ucsim.I80.c60_false_rst",
    "Ucsim.I80.c60_false_adc",
    "Ucsim.I80.c60_false_sbb",
    "Ucsim.I80.c60_false_sbba",
    "Ucsim.I80.c60_false_ac",
    "Ucsim.I80.c60_false_ana",
    "Ucsim.I80.c60_false_wrap",
    "Ucsim.I80.c60_false_pop"
   ],
   "note": "all opcodes, states and programs of any length against a machine written from the manual, except the listed cases: RST 2,3,6,7 do nothing (c60_false_rst); ADC #FF / SBB of an equal byte with carry set lose the carry (c60_false_adc, _sbb, _sbba); AC wrong after some additions and subtractions (c60_false_ac) and after ANA on the 8080 (c60_false_ana) - everything but AC is proved right anyway (c60_noac_partial); LHLD/SHLD/XTHL at FFFF (c60_false_wrap); POP PSW on the 8080 (c60_false_pop); DAA see C61; IN/OUT/EI/DI/RIM/SIM have no effect in the simulator"
  },
  {
   "property": "C61",
   "status": "partial",
   "theorems": [
    "Ucsim.I80.c61_bcd_partial",
    "Ucsim.I80.c61_small",
    "Ucsim.I80.c61_false",
    "Ucsim.I80.c61_false_carry"
   ],
   "note": "c61_bcd_partial gives the exact set of operands with the right sum (iff); all sums below 80 are (c61_small); 49+49 gives F8 (c61_false), 90+90 loses the carry (c61_false_carry)"
  },
  {
   "property": "C62",
   "status": "partial",
   "theorems": [
    "Ucsim.I80.c62_8085_partial",
    "Ucsim.I80.c62_8080_partial",
    "Ucsim.I80.c62_false_jcc",
    "Ucsim.I80.c62_false_mov",
    "Ucsim.I80.c62_false_self"
   ],
   "note": "proved for all opcodes but MOV A,H on the 8085 (c62_false_mov), XCHG and taken conditional jumps on the 8080 (c62_false_jcc: they count 0), and instructions that overwrite their own opcode (c62_false_self)"
  },
  {
   "property": "C63",
   "status": "partial",
   "theorems": [
    "Ucsim.I80.c63_text_partial",
    "Ucsim.I80.c63_length",
    "Ucsim.I80.c63_false_xra",
    "Ucsim.I80.c63_false_length"
   ],
   "note": "proved for all documented instructions but XRA, which is shown as XOR (c63_false_xra); instructions in the processor specific tables are shown with length 1 (c63_false_length)"
  },
  {
   "property": "C64",
   "status": "partial",
   "theorems": [
    "Ucsim.S51.isCall_ok",
    "Ucsim.S51.c64_step",
    "Ucsim.S51.c64_call_partial",
    "Ucsim.S51.c64_false_acall",
    "Ucsim.S51.c64_false_acall_pc",
    "Ucsim.I80.c64_false_i80",
    "Ucsim.M65.isCall_ok",
    "Ucsim.M65.c64_m65_step",
    "Ucsim.M65.c64_m65_call_partial"
   ],
   "note": "8051: proved for LCALL and ACALL but opcode 0x11 (ACALL to page 0), which is not known as a call (c64_false_acall); 8080/8085: no call is known as one (c64_false_i80); 6502: proved for all instructions (c64_m65_step, c64_m65_call_partial); no breakpoints or user stops in between"
  },
  {
   "property": "C65",
   "status": "partial",
   "theorems": [
    "Ucsim.I80.c65_arhl",
    "Ucsim.I80.c65_rdel",
    "Ucsim.I80.c65_lhlx_partial",
    "Ucsim.I80.c65_shlx",
    "Ucsim.I80.c65_rstv",
    "Ucsim.I80.c65_dsub_partial",
    "Ucsim.I80.c65_false_jx5",
    "Ucsim.I80.c65_false_ldhi",
    "Ucsim.I80.c65_false_dsub"
   ],
   "note": "JNX5 and JX5 are exchanged (c65_false_jx5); LDHI/LDSI load from memory instead of adding (c65_false_ldhi); DSUB with BC=0 sets carry (c65_false_dsub); LHLX at FFFF excluded"
  },
  {
   "property": "C66",
   "status": "partial",
   "theorems": [
    "Ucsim.M65.c66_step_partial",
    "Ucsim.M65.c66_run_partial",
    "Ucsim.M65.c66_binary_partial",
    "Ucsim.M65.c66_undefined",
    "Ucsim.M65.c66_reset",
    "Ucsim.M65.c66_false_pointer",
    "Ucsim.M65.c66_false_jmp",
    "Ucsim.M65.c66_false_rts"
   ],
   "note": "all documented opcodes, states and programs of any length against a machine written from the manual (in decimal mode N, V, Z after ADC/SBC are undefined there), except: a zero page pointer at FF takes its high byte from 0100 (c66_false_pointer); JMP (xxFF) takes it from the next page (c66_false_jmp); RTS to FFFF+1 leaves the memory (c66_false_rts); ADC/SBC in decimal mode on bytes that are not decimal; no interrupt requested (C69)"
  },
  {
   "property": "C67",
   "status": "proved",
   "theorems": [
    "Ucsim.M65.c67_adc",
    "Ucsim.M65.c67_sbc",
    "Ucsim.M65.c67_addAll",
    "Ucsim.M65.c67_subAll"
   ],
   "note": ""
  },
  {
   "property": "C68",
   "status": "partial",
   "theorems": [
    "Ucsim.M65.c68_clocks_partial",
    "Ucsim.M65.c68_false_nop",
    "Ucsim.M65.c68_false_jsr",
    "Ucsim.M65.c68_false_brk",
    "Ucsim.M65.c68_false_indexed"
   ],
   "note": "proved for all instructions and operands but NOP (1), JSR (3), BRK (8) and some indexed stores and read-modify-writes (c68_false_indexed)"
  },
  {
   "property": "C69",
   "status": "partial",
   "theorems": [
    "Ucsim.M65.c69_irq_partial",
    "Ucsim.M65.c69_nmi_partial",
    "Ucsim.M65.c69_brk_partial",
    "Ucsim.M65.c69_rti",
    "Ucsim.M65.c69_false_nmi_blocked",
    "Ucsim.M65.c69_false_nmi_again",
    "Ucsim.M65.c69_false_brk_nested",
    "Ucsim.M65.c69_false_irq_blocked"
   ],
   "note": "proved while no other service is in progress, and RTI for every handler; but NMI is not taken in an IRQ or BRK handler (c69_false_nmi_blocked), is taken again while its line is active (c69_false_nmi_again), BRK in a BRK handler is skipped (c69_false_brk_nested), CLI in a handler does not let IRQ in (c69_false_irq_blocked)"
  },
  {
   "property": "C70",
   "status": "partial",
   "theorems": [
    "Ucsim.M65.c70_text_partial",
    "Ucsim.M65.c70_length_partial",
    "Ucsim.M65.c70_false_indy",
    "Ucsim.M65.c70_false_zp",
    "Ucsim.M65.c70_false_length"
   ],
   "note": "proved for all documented instructions but those with zero page and (zp),Y operands (c70_false_zp, c70_false_indy); undocumented opcodes have length 0 (c70_false_length)"
  },
  {
   "property": "C71",
   "status": "proved",
   "theorems": [
    "Ucsim.S51.Uart.c71_order",
    "Ucsim.S51.Uart.c71_all",
    "Ucsim.S51.Uart.c71_last"
   ],
   "note": ""
  },
  {
   "property": "C72",
   "status": "partial",
   "theorems": [
    "Ucsim.S51.Uart.c72_send_partial",
    "Ucsim.S51.Uart.c72_ti_partial",
    "Ucsim.S51.Uart.c72_receive_partial",
    "Ucsim.S51.Uart.c72_false_mode2",
    "Ucsim.S51.Uart.c72_false_two_timers",
    "Ucsim.S51.Uart.c72_false_mode0",
    "Ucsim.S51.Uart.c72_false_back"
   ],
   "note": "proved for mode 0 and modes 1, 3 with one timer running; mode 2 is twice too fast (c72_false_mode2); with timer 2 as generator timer 1 is counted too (c72_false_two_timers), mode 0 changes its rate (c72_false_mode0), and the rate stays when timer 2 is deselected (c72_false_back)"
  },
  {
   "property": "C73",
   "status": "partial",
   "theorems": [
    "Ucsim.S51.Uart.c73_ren",
    "Ucsim.S51.Uart.c73_prefix_partial",
    "Ucsim.S51.Uart.c73_all_partial",
    "Ucsim.S51.Uart.c73_binary_partial",
    "Ucsim.S51.Uart.c73_false_newline",
    "Ucsim.S51.Uart.c73_false_key"
   ],
   "note": "proved for every input without CR LF LF and LF CR CR (c73_false_newline: a line end is lost), or nl=0, from files and sockets; a key pressed while a character waits is lost (c73_false_key)"
  },
  {
   "property": "C74",
   "status": "partial",
   "theorems": [
    "Ucsim.S51.Uart.c74_flow_partial",
    "Ucsim.S51.Uart.c74_file_partial",
    "Ucsim.S51.Uart.c74_false_overrun",
    "Ucsim.S51.Uart.c74_false_two",
    "Ucsim.S51.Uart.c74_false_reset"
   ],
   "note": "proved for a new line of at most one character and no reset; two characters overrun (c74_false_two); a reset stops the input (c74_false_reset); without flow control bytes are overwritten (c74_false_overrun)"
  },
  {
   "property": "C75",
   "status": "partial",
   "theorems": [
    "Ucsim.S51.Tim2.c75_baud",
    "Ucsim.S51.Tim2.c75_capture_partial",
    "Ucsim.S51.Tim2.c75_reload_partial",
    "Ucsim.S51.Tim2.c75_updown_partial",
    "Ucsim.S51.Tim2.c75_period_partial",
    "Ucsim.S51.Tim2.c75_overflows",
    "Ucsim.S51.Tim2.c75_false_counter",
    "Ucsim.S51.Tim2.c75_false_dcen",
    "Ucsim.S51.Tim2.c75_false_clear_tf2",
    "Ucsim.S51.Tim2.c75_false_dcen_off",
    "Ucsim.S51.Tim2.c75_false_exf2",
    "Ucsim.S51.Tim2.c75_false_underflow"
   ],
   "note": "baud rate generator proved in all reachable states; capture and reload proved for C/T2=0 (with C/T2=1 machine cycles are counted instead of edges, c75_false_counter); up/down proved when DCEN was set after the last write of T2CON, EXF2 aside: any write of T2CON makes it count up (c75_false_dcen, c75_false_clear_tf2), clearing DCEN has no effect (c75_false_dcen_off), P1.6 changes instead of EXF2 (c75_false_exf2), RCAP2=0 and values below RCAP2 (c75_false_underflow)"
  },
  {
   "property": "C76",
   "status": "partial",
   "theorems": [
    "Ucsim.S51.Tim2.c76_capture",
    "Ucsim.S51.Tim2.c76_reload_partial",
    "Ucsim.S51.Tim2.c76_disabled",
    "Ucsim.S51.Tim2.c76_false_old_edge"
   ],
   "note": "an edge while EXEN2 is clear is acted on when EXEN2 is set later (c76_false_old_edge); everything else proved: edges since the last cycle with EXEN2 set"
  },
  {
   "property": "C77",
   "status": "partial",
   "theorems": [
    "Ucsim.S51.Baud.c77_send_partial",
    "Ucsim.S51.Baud.c77_rate_partial",
    "Ucsim.S51.Baud.c77_false_deselect"
   ],
   "note": "proved for sending in modes 1 and 3 while timer 2 stays selected (but for resets) and timer 1 does not overflow meanwhile; after deselecting the bit time is wrong (c77_false_deselect)"
  },
  {
   "property": "C78",
   "status": "partial",
   "theorems": [
    "Ucsim.Fio.c78_order_partial",
    "Ucsim.Fio.c78_all_partial",
    "Ucsim.Fio.c78_end_partial",
    "Ucsim.Fio.c78_avail_partial",
    "Ucsim.Fio.c78_ff_false",
    "Ucsim.Fio.c78_ff_end_false"
   ],
   "note": "proved for files without the byte 0xff, which is lost (c78_ff_false) and may be taken for the end of the file (c78_ff_end_false)"
  },
  {
   "property": "C79",
   "status": "partial",
   "theorems": [
    "Ucsim.Fio.c79_order_partial",
    "Ucsim.Fio.c79_all_partial",
    "Ucsim.Fio.c79_mixed_false",
    "Ucsim.Fio.c79_ff_false"
   ],
   "note": "proved for files that end their lines in one way throughout and have no NUL, 0xff or ^C; when the way changes a line end is lost (c79_mixed_false); a byte 0xff can stop the console early (c79_ff_false)"
  },
  {
   "property": "C80",
   "status": "partial",
   "theorems": [
    "Ucsim.Fio.c80_edit_partial",
    "Ucsim.Fio.c80_lines_partial",
    "Ucsim.Fio.c80_long_partial",
    "Ucsim.Fio.c80_false_high",
    "Ucsim.Fio.c80_false_newline",
    "Ucsim.Fio.c80_false_escape",
    "Ucsim.Fio.c80_false_full"
   ],
   "note": "proved for all lists of the keys in Spec/Edit.lean on terminals that use one line end throughout, lines delivered if the buffer of 1023 characters is not overrun (sessions of up to 1023 characters, or lines of up to 924 characters without the history); false for characters above 0x7f, mixed line ends, unknown escape sequences, lines of 1023 characters"
  },
  {
   "property": "C81",
   "status": "proved",
   "theorems": [
    "Ucsim.Fio.c81_shows",
    "Ucsim.Fio.c81_shows_any"
   ],
   "note": "for all sequences of bytes, on a terminal of unlimited width (echo as terminal operations, no colours)"
  },
  {
   "property": "C82",
   "status": "partial",
   "theorems": [
    "Ucsim.Fio.c82_browse_partial",
    "Ucsim.Fio.c82_false_draft",
    "Ucsim.Fio.c82_false_edit"
   ],
   "note": "proved for looking (any sequence of Up and Down from an empty line, up to 1000 lines); false: the line being typed is lost, editing a recalled line changes the history"
  },
  {
   "property": "C83",
   "status": "partial",
   "theorems": [
    "Ucsim.Fio.c83_line_partial",
    "Ucsim.Fio.c83_keys_partial",
    "Ucsim.Fio.c83_false_escape",
    "Ucsim.Fio.c83_false_mouse"
   ],
   "note": "the line buffer is safe for all bytes, all buffers for the keys of terminals; false for long escape sequences (esc_buffer overrun) and unknown mouse buttons (isprint of a value that is not a character)"
  },
  {
   "property": "C84",
   "status": "partial",
   "theorems": [
    "Ucsim.Simif.c84_commands_partial",
    "Ucsim.Simif.c84_limit",
    "Ucsim.Simif.c84_pipe_partial",
    "Ucsim.Simif.c84_false_stop",
    "Ucsim.Simif.c84_false_ff",
    "Ucsim.Simif.c84_false_info",
    "Ucsim.Simif.c84_false_getlimit",
    "Ucsim.Simif.c84_false_wide"
   ],
   "note": "proved for cells of 8 bits and input without the byte 0xff, with the answers the code gives to stop, cmdinfo and getlimit; these differ from the documentation (c84_false_stop, _info, _getlimit), 0xff is answered by an uninitialised value (c84_false_ff), bytes above 0x7f are sign extended in wide cells (c84_false_wide)"
  },
  {
   "property": "C85",
   "status": "partial",
   "theorems": [
    "Ucsim.Simif.c85_any_partial",
    "Ucsim.Simif.c85_resync_partial",
    "Ucsim.Simif.c85_false_reset_args",
    "Ucsim.Simif.c85_false_reset_answer"
   ],
   "note": "the machine of three phases for all sequences of accesses; the reset command does not reset (taken as an argument or ignored), but four of them and enough reads do"
  },
  {
   "property": "C86",
   "status": "partial",
   "theorems": [
    "Ucsim.Z80.c86_step_partial",
    "Ucsim.Z80.c86_program_partial",
    "Ucsim.Z80.c86_blockio_partial",
    "Ucsim.Z80.c86_false_adc",
    "Ucsim.Z80.c86_false_sbc",
    "Ucsim.Z80.c86_false_adchl",
    "Ucsim.Z80.c86_false_sbchl",
    "Ucsim.Z80.c86_false_rot",
    "Ucsim.Z80.c86_false_in",
    "Ucsim.Z80.c86_false_rrd",
    "Ucsim.Z80.c86_false_rld",
    "Ucsim.Z80.c86_false_stHL",
    "Ucsim.Z80.c86_false_ldHL",
    "Ucsim.Z80.c86_false_push",
    "Ucsim.Z80.c86_false_pop",
    "Ucsim.Z80.c86_false_retn",
    "Ucsim.Z80.c86_false_reti",
    "Ucsim.Z80.c86_false_cpi",
    "Ucsim.Z80.c86_false_cpir",
    "Ucsim.Z80.c86_false_cpd",
    "Ucsim.Z80.c86_false_cpdr",
    "Ucsim.Z80.c86_false_outi",
    "Ucsim.Z80.c86_false_ini",
    "Ucsim.Z80.c86_false_call",
    "Ucsim.Z80.c86_false_jr",
    "Ucsim.Z80.c86_false_jr_back"
   ],
   "note": "all documented instructions, states and programs of any length against a machine written from the manual, except the cases of Spec/Z80Diff.lean: each has a witness: H after ADC/SBC with an operand ending in F and carry, P/V of rotations taken from A, flags of IN r,(C), RRD, RLD, 16 bit accesses at FFFF, stack over the ends of the memory, RETN/RETI and IFF, flags of CPI/CPIR, CPD going up, CPDR, OUTI to the wrong port, N of block i/o, CALL over its own operand, JR over the ends of the memory"
  },
  {
   "property": "C87",
   "status": "partial",
   "theorems": [
    "Ucsim.Z80.c87_step_partial",
    "Ucsim.Z80.c87_program_partial",
    "Ucsim.Z80.c87_false_inc",
    "Ucsim.Z80.c87_false_dec",
    "Ucsim.Z80.c87_false_bit",
    "Ucsim.Z80.c87_false_out",
    "Ucsim.Z80.c87_false_self",
    "Ucsim.Z80.c87_false_end"
   ],
   "note": "proved for all documented instructions but INC (HL), DEC (HL), BIT b,(HL) and OUT (C),E, instructions that overwrite their own opcode (c87_false_self) or lie over the end of the memory (c87_false_end)"
  },
  {
   "property": "C88",
   "status": "partial",
   "theorems": [
    "Ucsim.Z80.c88_copy",
    "Ucsim.Z80.c88_bytewise",
    "Ucsim.Z80.c88_found",
    "Ucsim.Z80.c88_absent",
    "Ucsim.Z80.c88_false_cpdr"
   ],
   "note": "LDIR, LDDR, CPIR proved; CPDR stops at the byte, not behind it (c88_false_cpdr)"
  },
  {
   "property": "C89",
   "status": "proved",
   "theorems": [
    "Ucsim.Z80.c89_add",
    "Ucsim.Z80.c89_sub"
   ],
   "note": ""
  },
  {
   "property": "C90",
   "status": "partial",
   "theorems": [
    "Ucsim.Z80.c90_text_partial",
    "Ucsim.Z80.c90_length_partial",
    "Ucsim.Z80.c90_call",
    "Ucsim.Z80.c90_false_ed",
    "Ucsim.Z80.c90_false_add",
    "Ucsim.Z80.c90_false_ldi",
    "Ucsim.Z80.c90_false_case"
   ],
   "note": "proved for all documented instructions but LD dd,(nn) and LD (nn),dd with ED (shown as nnnn, two bytes: c90_false_ed), length of ADD HL,DE (c90_false_add), LD I,A / LD A,I (c90_false_ldi), and a few with other letter case or blanks, SUB with A (c90_false_case); calls proved for all"
  },
  {
   "property": "C91",
   "status": "partial",
   "theorems": [
    "Ucsim.Z80.c91_refresh_partial",
    "Ucsim.Z80.c91_reset_partial",
    "Ucsim.Z80.c91_false_prefix",
    "Ucsim.Z80.c91_false_reset"
   ],
   "note": "R proved for instructions without prefix (with one, one of two fetches is counted: c91_false_prefix); reset leaves I and R (c91_false_reset)"
  },
  {
   "property": "C92",
   "status": "partial",
   "theorems": [
    "Ucsim.Cmd.c92_arguments_partial",
    "Ucsim.Cmd.c92_safe_partial",
    "Ucsim.Cmd.c92_separators",
    "Ucsim.Cmd.c92_safe_false",
    "Ucsim.Cmd.c92_numbers_false",
    "Ucsim.Cmd.c92_dropped_false",
    "Ucsim.Cmd.c92_quoted_false"
   ],
   "note": "proved for numbers below 2^63 and lines without $ and backslash outside of strings; false of the code: lines ending in a backslash or $, and unterminated quoted file names are read past the end (c92_safe_false), 12ab is 12 (c92_numbers_false), wrong arguments are dropped and the others move up (c92_dropped_false), text after a quoted file name with an escape is lost (c92_quoted_false)"
  },
  {
   "property": "C93",
   "status": "partial",
   "theorems": [
    "Ucsim.Cmd.c93_sequence_partial",
    "Ucsim.Cmd.c93_comment",
    "Ucsim.Cmd.c93_string_false",
    "Ucsim.Cmd.c93_quit_false"
   ],
   "note": "proved but for the command `commands`, which takes the rest of the line, and ; in strings of commands with subcommands (c93_string_false); quit;pc does not quit (c93_quit_false)"
  },
  {
   "property": "C94",
   "status": "partial",
   "theorems": [
    "Ucsim.Cmd.c94_lookup",
    "Ucsim.Cmd.c94_run",
    "Ucsim.Cmd.c94_repeat",
    "Ucsim.Cmd.c94_blank_false",
    "Ucsim.Cmd.c94_frozen"
   ],
   "note": "names, subcommands and repetition proved; a blank or a comment makes the console forget the command (c94_blank_false); a line entered while the simulation runs is not executed (c94_frozen)"
  },
  {
   "property": "C95",
   "status": "partial",
   "theorems": [
    "Ucsim.Cmd.c95_list_partial",
    "Ucsim.Cmd.c95_bits_partial",
    "Ucsim.Cmd.c95_name_false",
    "Ucsim.Cmd.c95_wide_false",
    "Ucsim.Cmd.c95_beyond_false",
    "Ucsim.Cmd.c95_bits_false",
    "Ucsim.Cmd.c95_shadow_false"
   ],
   "note": "proved for numbers and strings as data on locations without peripherals; names as data store garbage (c95_name_false), characters from 128 on are sign extended (c95_wide_false), data beyond the end are dropped silently (c95_beyond_false), 32 bits at once are undefined (c95_bits_false), variables hide memories (c95_shadow_false)"
  },
  {
   "property": "C96",
   "status": "partial",
   "theorems": [
    "Ucsim.Dump.c96_up_partial",
    "Ucsim.Dump.c96_down_partial",
    "Ucsim.Dump.c96_start",
    "Ucsim.Dump.c96_unique",
    "Ucsim.Dump.c96_zero_false",
    "Ucsim.Dump.c96_down_false"
   ],
   "note": "proved for all memories below address 0xffffffff and ranges upwards, and downwards inside of the memory above 0; false: 0 values on a line never ends (c96_zero_false), down to 0, from above or to below the memory shows nothing (c96_down_false)"
  },
  {
   "property": "C97",
   "status": "partial",
   "theorems": [
    "Ucsim.Dump.c97_again_partial",
    "Ucsim.Dump.c97_last_false",
    "Ucsim.Dump.c97_next_false"
   ],
   "note": "proved for any number of repetitions unless one location is left over: this is never shown (c97_last_false); the same after a dump up to the last but one location (c97_next_false)"
  },
  {
   "property": "C98",
   "status": "partial",
   "theorems": [
    "Ucsim.Dump.c98_names_partial",
    "Ucsim.Dump.c98_code",
    "Ucsim.Dump.c98_lines_false"
   ],
   "note": "names proved for ranges upwards, code proved; without addresses the ten lines are not kept when a location with two names is at the border (c98_lines_false)"
  },
  {
   "property": "C99",
   "status": "partial",
   "theorems": [
    "Ucsim.Dump.c99_string",
    "Ucsim.Dump.c99_bytes_partial",
    "Ucsim.Dump.c99_whole",
    "Ucsim.Dump.c99_reads_false",
    "Ucsim.Dump.c99_back_false"
   ],
   "note": "contents proved; dump /b also reads the location after the last (c99_reads_false); the octal escapes are not understood by set memory (c99_back_false)"
  },
  {
   "property": "C100",
   "status": "partial",
   "theorems": [
    "Ucsim.H08.c100_step_partial",
    "Ucsim.H08.c100_run_partial",
    "Ucsim.H08.c100_open",
    "Ucsim.H08.c100_undefined",
    "Ucsim.H08.c100_swi_partial",
    "Ucsim.H08.c100_wait_partial",
    "Ucsim.H08.c100_rsp_partial",
    "Ucsim.H08.c100_dbnz_partial",
    "Ucsim.H08.c100_false_swi",
    "Ucsim.H08.c100_false_wait",
    "Ucsim.H08.c100_false_stop",
    "Ucsim.H08.c100_false_rsp",
    "Ucsim.H08.c100_false_dbnz",
    "Ucsim.H08.c100_false_own",
    "Ucsim.H08.c100_false_store",
    "Ucsim.H08.c100_false_jmp",
    "Ucsim.H08.c100_false_branch"
   ],
   "note": "proved for all instructions outside of the listed differences (Spec/H08Diff), each of which is shown: SWI enables interrupts, WAIT and STOP do not wait, RSP sets all of SP, DBNZ changes flags and reads its offset late, stores and jumps beyond FFFF do not wrap around"
  },
  {
   "property": "C101",
   "status": "partial",
   "theorems": [
    "Ucsim.H08.c101_manual",
    "Ucsim.H08.c101_daa_partial",
    "Ucsim.H08.c101_false_digits"
   ],
   "note": "the carry is right; A is never corrected (c101_false_digits)"
  },
  {
   "property": "C102",
   "status": "partial",
   "theorems": [
    "Ucsim.H08.c102_hcs08_partial",
    "Ucsim.H08.c102_hc08_partial",
    "Ucsim.H08.c102_false_hc08",
    "Ucsim.H08.c102_false_hcs08"
   ],
   "note": "exact lists of the instructions whose cycles differ (the M68HC08 mostly gets the cycles of the HCS08)"
  },
  {
   "property": "C103",
   "status": "partial",
   "theorems": [
    "Ucsim.H08.c103_reset_partial",
    "Ucsim.H08.c103_false_mask",
    "Ucsim.H08.c103_false_pc"
   ],
   "note": "the vector is taken at the first step, so a PC set after reset is lost (c103_false_pc); I is clear (c103_false_mask)"
  },
  {
   "property": "C104",
   "status": "partial",
   "theorems": [
    "Ucsim.H08.c104_text_partial",
    "Ucsim.H08.c104_length_partial",
    "Ucsim.H08.c104_next_partial",
    "Ucsim.H08.c104_false_bsr",
    "Ucsim.H08.c104_false_dbnz",
    "Ucsim.H08.c104_false_hcs",
    "Ucsim.H08.c104_false_mov",
    "Ucsim.H08.c104_false_dbnzx"
   ],
   "note": "proved for all but BSR and DBNZ (text) and three lengths, each shown"
  },
  {
   "property": "C105",
   "status": "proved",
   "theorems": [
    "Ucsim.H08.c105_accesses",
    "Ucsim.H08.c105_pointer",
    "Ucsim.H08.c105_block",
    "Ucsim.H08.c105_window",
    "Ucsim.H08.c105_fixed",
    "Ucsim.H08.c105_reset"
   ],
   "note": "decoders and banker taken as the map they describe (C06-C08)"
  },
  {
   "property": "C106",
   "status": "proved",
   "theorems": [
    "Ucsim.H08.c106_call",
    "Ucsim.H08.c106_rtc",
    "Ucsim.H08.c106_round"
   ],
   "note": "stack in RAM"
  },
  {
   "property": "C107",
   "status": "partial",
   "theorems": [
    "Ucsim.H08.c107_own_partial",
    "Ucsim.H08.c107_others_partial",
    "Ucsim.H08.c107_false_length",
    "Ucsim.H08.c107_false_hcs08"
   ],
   "note": "CALL and RTC only: every other instruction is listed as if it began one byte later, the additional instructions of the HCS08 are refused"
  },
  {
   "property": "C108",
   "status": "partial",
   "theorems": [
    "Ucsim.I48.c108_inst_partial",
    "Ucsim.I48.c108_run_partial",
    "Ucsim.I48.c108_step",
    "Ucsim.I48.c108_undefined",
    "Ucsim.I48.c108_reset",
    "Ucsim.I48.c108_wf",
    "Ucsim.I48.c108_reset_state",
    "Ucsim.I48.c108_false_addc",
    "Ucsim.I48.c108_false_djnz",
    "Ucsim.I48.c108_false_loop",
    "Ucsim.I48.c108_false_page",
    "Ucsim.I48.c108_false_isr",
    "Ucsim.I48.c108_false_movp3",
    "Ucsim.I48.c108_false_movd",
    "Ucsim.I48.c108_false_ram",
    "Ucsim.I48.c108_false_pins"
   ],
   "note": "proved for all instructions outside of the listed differences (Spec/I48Diff), each of which is shown: ADDC A,@Rr is missing, DJNZ counts R7 and always jumps, jumps at the end of a page, long jumps in interrupt routines, MOVP3 in the upper bank, the expander clears port 2, data memory is not mirrored"
  },
  {
   "property": "C109",
   "status": "proved",
   "theorems": [
    "Ucsim.I48.c109_ret",
    "Ucsim.I48.c109_retr",
    "Ucsim.I48.c109_irq",
    "Ucsim.I48.c109_balance"
   ],
   "note": ""
  },
  {
   "property": "C110",
   "status": "partial",
   "theorems": [
    "Ucsim.I48.c110_pre",
    "Ucsim.I48.c110_reset",
    "Ucsim.I48.c110_timer_partial",
    "Ucsim.I48.c110_stopped",
    "Ucsim.I48.c110_start",
    "Ucsim.I48.c110_jtf",
    "Ucsim.I48.c110_false_rate",
    "Ucsim.I48.c110_false_rate2",
    "Ucsim.I48.c110_false_counter"
   ],
   "note": "closed form for any number of clocks; one count takes 512 clocks instead of 160 (c110_false_rate), T1 is never counted (c110_false_counter)"
  },
  {
   "property": "C111",
   "status": "partial",
   "theorems": [
    "Ucsim.I48.c111_external",
    "Ucsim.I48.c111_none",
    "Ucsim.I48.c111_resume",
    "Ucsim.I48.c111_false_timer",
    "Ucsim.I48.c111_false_timer_case"
   ],
   "note": "external interrupt proved; the interrupt of the timer never happens (c111_false_timer)"
  },
  {
   "property": "C112",
   "status": "partial",
   "theorems": [
    "Ucsim.I48.c112_cycles_partial",
    "Ucsim.I48.c112_false"
   ],
   "note": "all but ANL A,#, ENT0 CLK and MOV @Rr,A, which are wrong in every state"
  },
  {
   "property": "C113",
   "status": "proved",
   "theorems": [
    "Ucsim.I48.c113_bcd"
   ],
   "note": ""
  },
  {
   "property": "C114",
   "status": "partial",
   "theorems": [
    "Ucsim.I48.c114_in",
    "Ucsim.I48.c114_rmw",
    "Ucsim.I48.c114_other",
    "Ucsim.I48.c114_expander",
    "Ucsim.I48.c114_false_expander"
   ],
   "note": "the expander clears the upper half of port 2 (c114_false_expander)"
  },
  {
   "property": "C115",
   "status": "proved",
   "theorems": [
    "Ucsim.I48.c115_select",
    "Ucsim.I48.c115_write"
   ],
   "note": ""
  },
  {
   "property": "C116",
   "status": "partial",
   "theorems": [
    "Ucsim.I48.c116_text_partial",
    "Ucsim.I48.c116_length_partial",
    "Ucsim.I48.c116_next_partial",
    "Ucsim.I48.c116_false_names",
    "Ucsim.I48.c116_false_addc",
    "Ucsim.I48.c116_false_page",
    "Ucsim.I48.c116_false_length",
    "Ucsim.I48.c116_false_call",
    "Ucsim.I48.c64_false_i48"
   ],
   "note": "proved but for ADDC and ANLD (names), ENT0 CLK and ANL BUS,# (lengths), jumps in the last byte of a page; CALL is not known to be a call"
  },
  {
   "property": "C117",
   "status": "partial",
   "theorems": [
    "Ucsim.Avr.c117_step_partial",
    "Ucsim.Avr.c117_invalid_partial",
    "Ucsim.Avr.c117_program_partial",
    "Ucsim.Avr.c117_false",
    "Ucsim.Avr.c117_false_invalid",
    "Ucsim.Avr.c117_false_end",
    "Ucsim.Avr.c117_false_sleep"
   ],
   "note": "holds for all programs whose instructions are not in Differs (Spec/AvrDiff); one witness for each deviation in c117_false; some words that are no instructions are executed, SLEEP is not obeyed, PC can leave the memory"
  },
  {
   "property": "C118",
   "status": "partial",
   "theorems": [
    "Ucsim.Avr.c118_push_pop_partial",
    "Ucsim.Avr.c118_call_return_partial",
    "Ucsim.Avr.c118_false"
   ],
   "note": "proved for stacks in the 0x80 cells the data memory has; above, every cell is the same one (c118_false)"
  },
  {
   "property": "C119",
   "status": "proved",
   "theorems": [
    "Ucsim.Avr.c119_add"
   ],
   "note": ""
  },
  {
   "property": "C120",
   "status": "partial",
   "theorems": [
    "Ucsim.Avr.c120_sub_partial",
    "Ucsim.Avr.c120_false"
   ],
   "note": "one byte; SBC gives 0 or 1 (c120_false), so that it is false of two or more bytes"
  },
  {
   "property": "C121",
   "status": "partial",
   "theorems": [
    "Ucsim.Avr.c121_cycles_partial",
    "Ucsim.Avr.c121_false"
   ],
   "note": "all but IJMP, LDS, STS, LPM Rd, the multiplications but MUL, and skips over two words, which are wrong"
  },
  {
   "property": "C122",
   "status": "partial",
   "theorems": [
    "Ucsim.Avr.c122_skip_partial",
    "Ucsim.Avr.c122_false"
   ],
   "note": "SBIC/SBIS take the length of another instruction; skips over instructions unknown to the disassembler fail"
  },
  {
   "property": "C123",
   "status": "partial",
   "theorems": [
    "Ucsim.Avr.c123_length",
    "Ucsim.Avr.c123_known_partial",
    "Ucsim.Avr.c123_call_partial",
    "Ucsim.Avr.c123_target_partial",
    "Ucsim.Avr.c123_false"
   ],
   "note": "lengths of all words; targets of jumps, calls, branches; registers are shown wrong, 832 words as unknown, RCALL and ICALL are not calls"
  },
  {
   "property": "C124",
   "status": "partial",
   "theorems": [
    "Ucsim.Vcd.c124_dump_partial",
    "Ucsim.Vcd.c124_stop_partial",
    "Ucsim.Vcd.c124_false_set",
    "Ucsim.Vcd.c124_false_bit",
    "Ucsim.Vcd.c124_false_ro",
    "Ucsim.Vcd.c124_false_operator",
    "Ucsim.Vcd.c124_false_two"
   ],
   "note": "changes by writes to the watched cells themselves (not by set, not through a bit space), which are writable and have no later operator; the others are recorded wrong"
  },
  {
   "property": "C125",
   "status": "partial",
   "theorems": [
    "Ucsim.Vcd.c125_playback_partial",
    "Ucsim.Vcd.c125_false",
    "Ucsim.Vcd.c125_false_short"
   ],
   "note": "recordings without pauses in which no vector has the identifier 0 or 1; those are not restored, and short vectors are read wrong"
  },
  {
   "property": "C126",
   "status": "partial",
   "theorems": [
    "Ucsim.Vcd.c126_ids_partial",
    "Ucsim.Vcd.c126_ready_partial",
    "Ucsim.Vcd.c126_started",
    "Ucsim.Vcd.c126_add",
    "Ucsim.Vcd.c126_del_partial",
    "Ucsim.Vcd.c126_false_cell",
    "Ucsim.Vcd.c126_false_order",
    "Ucsim.Vcd.c126_false_ids"
   ],
   "note": "up to 94 additions; deleting by bits; whole cells and high/low pairs are not found by del"
  },
  {
   "property": "C127",
   "status": "partial",
   "theorems": [
    "Ucsim.P15.c127_alu_partial",
    "Ucsim.P15.c127_false_div"
   ],
   "note": "all operations but DIV, which does nothing"
  },
  {
   "property": "C128",
   "status": "partial",
   "theorems": [
    "Ucsim.P15.c128_reg_partial",
    "Ucsim.P15.c128_imm_partial",
    "Ucsim.P15.c128_one",
    "Ucsim.P15.c128_false_btst"
   ],
   "note": "all operations but BTST, which overwrites its register"
  },
  {
   "property": "C129",
   "status": "proved",
   "theorems": [
    "Ucsim.P15.c129_branch_reg",
    "Ucsim.P15.c129_branch_imm",
    "Ucsim.P15.c129_after"
   ],
   "note": ""
  },
  {
   "property": "C130",
   "status": "proved",
   "theorems": [
    "Ucsim.P15.c130_skip_p1516",
    "Ucsim.P15.c130_skip_p2223"
   ],
   "note": ""
  },
  {
   "property": "C131",
   "status": "proved",
   "theorems": [
    "Ucsim.P15.c131_call_p1516",
    "Ucsim.P15.c131_call_p2223",
    "Ucsim.P15.c131_return_p1516",
    "Ucsim.P15.c131_return_p2223"
   ],
   "note": ""
  },
  {
   "property": "C132",
   "status": "proved",
   "theorems": [
    "Ucsim.P15.c132_ld_p1516",
    "Ucsim.P15.c132_st_p1516",
    "Ucsim.P15.c132_const_p1516",
    "Ucsim.P15.c132_load_p2223",
    "Ucsim.P15.c132_store_p2223",
    "Ucsim.P15.c132_direct_p2223",
    "Ucsim.P15.c132_push_pop"
   ],
   "note": ""
  },
  {
   "property": "C133",
   "status": "proved",
   "theorems": [
    "Ucsim.P15.c133_putb",
    "Ucsim.P15.c133_getb"
   ],
   "note": ""
  },
  {
   "property": "C134",
   "status": "partial",
   "theorems": [
    "Ucsim.P15.c134_p1516_partial",
    "Ucsim.P15.c134_p2223_partial",
    "Ucsim.P15.c134_false_muh",
    "Ucsim.P15.c134_false_ret",
    "Ucsim.P15.c134_false_cond",
    "Ucsim.P15.c134_false_or",
    "Ucsim.P15.c134_false_push",
    "Ucsim.P15.c134_false_st"
   ],
   "note": "all words whose text names an instruction, but DIV, BTST, words shown as ret or push/pop that are others, and condition 15; these are shown wrong; sed, rds and wrs are not described"
  },
  {
   "property": "C135",
   "status": "proved",
   "theorems": [
    "Ucsim.P15.c135_add_p1516",
    "Ucsim.P15.c135_sub_p1516",
    "Ucsim.P15.c135_add_p2223",
    "Ucsim.P15.c135_sub_p2223"
   ],
   "note": ""
  },
  {
   "property": "C136",
   "status": "partial",
   "theorems": [
    "Ucsim.P15.c136_pc_partial",
    "Ucsim.P15.c136_break_partial",
    "Ucsim.P15.c136_false_break",
    "Ucsim.P15.c136_false_invalid"
   ],
   "note": "not after an invalid instruction of the P2223; clocks are counted at breakpoints"
  },
  {
   "property": "C137",
   "status": "proved",
   "theorems": [
    "Ucsim.P15.c137_rotate_p1516",
    "Ucsim.P15.c137_rotate_p2223"
   ],
   "note": ""
  },
  {
   "property": "C138",
   "status": "partial",
   "theorems": [
    "Ucsim.Pdk.c138_ak_partial",
    "Ucsim.Pdk.c138_am_partial",
    "Ucsim.Pdk.c138_ma_partial",
    "Ucsim.Pdk.c138_c_am_partial",
    "Ucsim.Pdk.c138_c_ma_partial",
    "Ucsim.Pdk.c138_c_a_partial",
    "Ucsim.Pdk.c138_c_m_partial",
    "Ucsim.Pdk.c138_inc_partial",
    "Ucsim.Pdk.c138_comp_partial",
    "Ucsim.Pdk.c138_nadd_value_partial",
    "Ucsim.Pdk.c138_false_nadd",
    "Ucsim.Pdk.c138_false_nadd_differs"
   ],
   "note": "all but the flags of nadd, which are wrong"
  },
  {
   "property": "C139",
   "status": "proved",
   "theorems": [
    "Ucsim.Pdk.c139_long_add"
   ],
   "note": ""
  },
  {
   "property": "C140",
   "status": "proved",
   "theorems": [
    "Ucsim.Pdk.c140_logic",
    "Ucsim.Pdk.c140_shift_a",
    "Ucsim.Pdk.c140_shift_m",
    "Ucsim.Pdk.c140_unary_a",
    "Ucsim.Pdk.c140_unary_m",
    "Ucsim.Pdk.c140_clear",
    "Ucsim.Pdk.c140_xch",
    "Ucsim.Pdk.c140_mov_ma",
    "Ucsim.Pdk.c140_mov_am",
    "Ucsim.Pdk.c140_mov_ak",
    "Ucsim.Pdk.c140_swap",
    "Ucsim.Pdk.c140_idxm_am",
    "Ucsim.Pdk.c140_idxm_ma",
    "Ucsim.Pdk.c140_bit_m",
    "Ucsim.Pdk.c140_io",
    "Ucsim.Pdk.c140_bit_io",
    "Ucsim.Pdk.c140_xor_io",
    "Ucsim.Pdk.c140_swapc",
    "Ucsim.Pdk.c140_mul",
    "Ucsim.Pdk.c140_t16"
   ],
   "note": ""
  },
  {
   "property": "C141",
   "status": "partial",
   "theorems": [
    "Ucsim.Pdk.c141_balanced",
    "Ucsim.Pdk.c141_call_ret_partial",
    "Ucsim.Pdk.c141_push_pop_partial",
    "Ucsim.Pdk.c141_false"
   ],
   "note": "false where SP is 255"
  },
  {
   "property": "C142",
   "status": "partial",
   "theorems": [
    "Ucsim.Pdk.c142_tsn_m_partial",
    "Ucsim.Pdk.c142_tsn_io_partial",
    "Ucsim.Pdk.c142_ceq_partial",
    "Ucsim.Pdk.c142_izs_a_partial",
    "Ucsim.Pdk.c142_izs_m_partial",
    "Ucsim.Pdk.c142_false"
   ],
   "note": "false at the word 4094"
  },
  {
   "property": "C143",
   "status": "partial",
   "theorems": [
    "Ucsim.Pdk.c143_goto_partial",
    "Ucsim.Pdk.c143_pcadd_partial",
    "Ucsim.Pdk.c143_cycles_partial",
    "Ucsim.Pdk.c143_invalid",
    "Ucsim.Pdk.c143_false"
   ],
   "note": "ret and taken skips count one cycle"
  },
  {
   "property": "C144",
   "status": "proved",
   "theorems": [
    "Ucsim.Pdk.c144_private"
   ],
   "note": ""
  },
  {
   "property": "C145",
   "status": "partial",
   "theorems": [
    "Ucsim.Pdk.c145_turns_partial",
    "Ucsim.Pdk.c145_ends_partial",
    "Ucsim.Pdk.c145_fair_partial",
    "Ucsim.Pdk.c145_false"
   ],
   "note": "false if FPPEN holds only bits of processors that do not exist: the simulator hangs"
  },
  {
   "property": "C146",
   "status": "proved",
   "theorems": [
    "Ucsim.Pdk.c146_stopped",
    "Ucsim.Pdk.c146_stops",
    "Ucsim.Pdk.c146_reset_starts"
   ],
   "note": ""
  },
  {
   "property": "C147",
   "status": "partial",
   "theorems": [
    "Ucsim.Pdk.c147_reset_partial",
    "Ucsim.Pdk.c147_false",
    "Ucsim.Pdk.c147_false_instruction"
   ],
   "note": "FPPEN, SP and the turn are not reset, CLKMD is 0"
  },
  {
   "property": "C149",
   "status": "partial",
   "theorems": [
    "Ucsim.Pdk.Hw.c149_count_partial",
    "Ucsim.Pdk.Hw.c149_chunks_partial",
    "Ucsim.Pdk.Hw.c149_irq_partial",
    "Ucsim.Pdk.Hw.c149_reset",
    "Ucsim.Pdk.Hw.c149_false",
    "Ucsim.Pdk.Hw.c149_false_pin"
   ],
   "note": "the interrupt when no instruction takes 2^b counts or more (else it may be missed); pins are never counted; clock counts below 2^32"
  },
  {
   "property": "C150",
   "status": "partial",
   "theorems": [
    "Ucsim.Pdk.Hw.c150_fires_partial",
    "Ucsim.Pdk.Hw.c150_kept_partial",
    "Ucsim.Pdk.Hw.c150_off",
    "Ucsim.Pdk.Hw.c150_false"
   ],
   "note": "when it was enabled by the program; the watchdog is off after a reset"
  },
  {
   "property": "C148",
   "status": "partial",
   "theorems": [
    "Ucsim.Pdk.Dis.c148_shown_partial",
    "Ucsim.Pdk.Dis.c148_invalid_partial",
    "Ucsim.Pdk.Dis.c148_same_partial",
    "Ucsim.Pdk.Dis.c148_false_call",
    "Ucsim.Pdk.Dis.c148_false_unknown",
    "Ucsim.Pdk.Dis.c148_false_bits",
    "Ucsim.Pdk.Dis.c148_false_ghost"
   ],
   "note": "not: disgint (shown disint), memory bits of PDK13, t0sn/t1sn of memory, call and goto of PDK15, comp m,a of PDK14, subc m of PDK13; reti, putchar, cneqsn of PDK13 and ldtabl are shown but not executed"
  },
  {
   "property": "C151",
   "status": "proved",
   "theorems": [
    "Ucsim.Misc.c151_step",
    "Ucsim.Misc.c151_programs",
    "Ucsim.Misc.c151_reset"
   ],
   "note": ""
  },
  {
   "property": "C152",
   "status": "proved",
   "theorems": [
    "Ucsim.Misc.c152_shift"
   ],
   "note": ""
  },
  {
   "property": "C153",
   "status": "proved",
   "theorems": [
    "Ucsim.Misc.c153_compare"
   ],
   "note": ""
  },
  {
   "property": "C154",
   "status": "proved",
   "theorems": [
    "Ucsim.Misc.c154_call",
    "Ucsim.Misc.c154_return",
    "Ucsim.Misc.c154_call_return"
   ],
   "note": ""
  },
  {
   "property": "C155",
   "status": "partial",
   "theorems": [
    "Ucsim.Misc.c155_text_partial",
    "Ucsim.Misc.c155_false_pc6"
   ],
   "note": "the source PC+6 is shown as PC+8"
  },
  {
   "property": "C156",
   "status": "proved",
   "theorems": [
    "Ucsim.Em.c156_step",
    "Ucsim.Em.c156_programs"
   ],
   "note": ""
  },
  {
   "property": "C157",
   "status": "proved",
   "theorems": [
    "Ucsim.Em.c157_stack"
   ],
   "note": ""
  },
  {
   "property": "C158",
   "status": "partial",
   "theorems": [
    "Ucsim.Em.c158_dis_partial",
    "Ucsim.Em.c158_regs_partial",
    "Ucsim.Em.c158_false_dis",
    "Ucsim.Em.c158_false_acc"
   ],
   "note": "showing an instruction whose source is [P++] or [A++] moves the pointer"
  },
  {
   "property": "C159",
   "status": "partial",
   "theorems": [
    "Ucsim.Urisc.c159_step_partial",
    "Ucsim.Urisc.c159_compare_partial",
    "Ucsim.Urisc.c159_false_not_shown",
    "Ucsim.Urisc.c159_false_shown_often",
    "Ucsim.Urisc.c159_false_jump",
    "Ucsim.Urisc.c159_false_overflow"
   ],
   "note": "only if the registers have been shown exactly once; moves to and from PC do nothing and O is wrong"
  },
  {
   "property": "C160",
   "status": "partial",
   "theorems": [
    "Ucsim.Pb.c160_step_partial",
    "Ucsim.Pb.c160_program_partial",
    "Ucsim.Pb.c160_above_false",
    "Ucsim.Pb.c160_star_false",
    "Ucsim.Pb.c160_outputk_false",
    "Ucsim.Pb.c160_scratch_false",
    "Ucsim.Pb.c160_comparecy_false",
    "Ucsim.Pb.c160_last_false"
   ],
   "note": "instructions below 0x3FF, not STAR and OUTPUTK, addresses within the scratch pad, no COMPARECY with 0xFF and C; in the other cases the simulator differs from the guides (witnesses); at most 30 nested calls"
  },
  {
   "property": "C161",
   "status": "partial",
   "theorems": [
    "Ucsim.Pb.c161_accept_partial",
    "Ucsim.Pb.c161_off",
    "Ucsim.Pb.c161_back_partial",
    "Ucsim.Pb.c161_zero_false"
   ],
   "note": "not when the next instruction is at 0: the return goes to 0x1000; the register bank of KCPSM6 is not looked at"
  },
  {
   "property": "C162",
   "status": "partial",
   "theorems": [
    "Ucsim.Pb.c162_text_partial",
    "Ucsim.Pb.c162_false"
   ],
   "note": "not CALL C and CALL Z of KCPSM6, whose texts are interchanged"
  }
 ]
}