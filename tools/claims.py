P = 'Ucsim.Props.'
def q(s): return ' '.join(P + x for x in s.split())
c('C01', 'proved', q('c01_write_read c01_last_write mem_history'))
c('C02', 'partial', q('c02_frame_partial c02_frame_bits c02_false_for_mixed_sizes'),
  'false when a space is decoded to a chip of smaller elements (witness c02_false_for_mixed_sizes); proved for equal element sizes, and for bits')
c('C03', 'proved', q('c03_alias c03_alias_targets'))
c('C04', 'proved', q('c04_read_only c04_download'))
c('C05', 'proved', q('c05_out_of_range c05_in_range'))
c('C42', 'proved', q('c42_in_bounds'))
c('C14', 'partial', q('c14_search c14_add_partial c14_history_partial'),
  'search is proved for every sorted list; add only below 8192 items, because adding to a list of 8192 items is out of bounds (c15_false_when_full)')
c('C15', 'partial', q('c15_step_partial c15_history_partial c15_new_fits c15_false_when_full c15_false_reachable c15_false_positions'),
  'false for lists that reach 8192 items (witness c15_false_reachable) and for unchecked positions of add_at and put_at (c15_false_positions); proved for everything else')
c('C06', 'proved', q('c06_activate c06_wire c06_last_address_undecoded c06_false_after_failed_activation'),
  'the test of activation accepts an area one longer than the chip has elements (c06_last_address_undecoded, allowed by the statement); outside of the quantified histories (a decoder whose activation failed stays in the list) the claim is false: c06_false_after_failed_activation')
c('C07', 'proved', q('c07_truthful'))
c('C08', 'partial', q('c08_follows_partial c08_number_one c08_number_two c08_two_in_table c08_start c08_init_one c08_init_two c08_session c08_false_redefine c08_false_hole c08_false_bit31 c08_false_set c08_write_reads_selector'),
  'proved for masks that are runs of ones below bit 31, selectors that no other cell aliases, any number of bankers and any history of accesses and first definitions of banks; false after a bank in use is redefined (c08_false_redefine), for masks with holes (c08_false_hole, index out of the table), for masks with bit 31 (c08_false_bit31, never ends), and set/download on the selector does not switch (c08_false_set)')
c('C09', 'partial', q('c09_wiring_partial c09_bit_access c09_session c09_false_wide'),
  'proved for 1..8 bits per element; false for more (c09_false_wide: bits 8 and up are lost)')
c('C10', 'partial', q('c10_partial c10_false'),
  'true exactly for elements wider than 16 bits (and element 0): both directions in c10_partial; witness c10_false')
c('C11', 'partial', q('c11_inc_valid c11_inc_congr_partial c11_false_inc c11_validate_partial c11_false_validate'),
  'inc_address is always valid but not congruent when the sum is below the start (c11_false_inc); validate_address is right for all addresses but start+size (c11_false_validate)')
c('C12', 'partial', q('c12_search_partial c12_where_partial c12_false_start c12_false_wide'),
  'proved (also for the where command) for memories from address 0; false for others (c12_false_start), undefined for words above 0xff when case is ignored (c12_false_wide)')
c('C13', 'partial', q('c13_history_partial c13_add_remove c13_write c13_false_null'),
  'deleting by breakpoint/peripheral from a cell without operators is a null dereference (c13_false_null); everything else proved')
c('C43', 'partial', q('c43_transparent_partial c43_false_hw'),
  'false on cells with a peripheral (c43_false_hw): the read breakpoint returns the raw cell content instead of what the peripheral answered')
c('C44', 'partial', q('c44_fill_partial c44_false_last'),
  'proved for ends below 0xffffffff (with it the loop never ends: c44_false_last) and spaces wider than one bit')
c('C16', 'partial', q('c16_map_partial c16_spec_last c16_false_full'),
  'proved for histories with at most 8192 different names; the 8193rd writes outside the pointer array (c16_false_full). cl_var with NULL memory not modelled')
c('C17', 'partial', q('c17_addr_partial c17_bits_partial c17_false_high'),
  'proved for addresses and memory ids below 2^31, bit numbers >= -1, at most 8192 names; above 2^31 variables get lost (c17_false_high)')
c('C18', 'partial', q('c18_width_partial c18_false'),
  'the reported length is always enough; exact only without replacements of names: c18_false shows a stale length')
c('C19', 'proved', q('c19_flag c19_commands brk_history_partial'),
  'c19_flag for every history that ends normally; c19_commands also shows that histories with code breakpoints inside the memory end normally and compares with the specification')
c('C20', 'proved', q('c20_unique'))
c('C21', 'proved', q('c21_hits c21_do_hit hits_from due_iff'))
c('C22', 'partial', q('c22_delete_partial c22_delete_any_partial c22_false_hang c22_false_delete c22_false_deleteAll c22_false_twice'),
  'proved for breakpoints inside the code memory; outside of it delete nr does nothing (c22_false_delete) and delete without argument never ends (c22_false_hang, c22_false_deleteAll)')
c('C23', 'partial', q('c23_events_partial c23_value c23_false_selector c23_false_other'),
  'proved for locations without peripherals and bank switchers; a write to a bank selector is reported as a read too (c23_false_selector); a breakpoint of mistyped kind is accepted and never reported (c23_false_other)')
c('C45', 'partial', q('c45_temp_partial c45_stays_partial c45_false_event'),
  'proved for breakpoints on fetch; temporary event breakpoints are never removed (c45_false_event)')
c('C24', 'proved', q('c24_history c24_since_clear c24_insts runs_sum c24_false_list_zero c24_false_list_negative'),
  'counters as natural numbers (int overflow of one run not modelled), total modulo 2^32; listing for a positive number of elements: with 0 it prints the whole array (c24_false_list_zero), with -10001 or less it reads outside of it (c24_false_list_negative)')
c('C30', 'partial', q('c30_elapsed c30_run c30_set c30_del c30_new run_total_partial c30_total_false'),
  'real time not modelled; every run that ends normally is covered; adding by a number of 8192 or more (or with no free number below) writes outside of the table (c30_total_false)')
c('C31', 'partial', q('c31_step_partial c31_stop_partial c31_false_limit c31_false_time c31_false_reason'),
  'for an arbitrary controller; excluded: programs that restart the counting through the simulator interface (c31_false_limit) and a pending time limit (c31_false_time); user input during the run is not modelled')
def q5(x):
    return ' '.join('Ucsim.S51.'+y for y in x.split())
c('C33', 'proved', q5('C33_add C33_addc C33_subb'), 'all addressing modes, with the frame: nothing else changes; peripherals arbitrary')
c('C34', 'proved', q5('C34_da C34_add_da C34_addc_da'))
c('C35', 'proved', q5('C35_mul C35_div'))
c('C36', 'proved', q5('c36_lcall c36_acall c36_ret c36_call_ret c36_push c36_pop c36_push_pop room256'))
c('C37', 'partial', q5('c37_length_partial c37_not_taken c37_false_reserved'),
  'proved for every opcode but the reserved 0xA5, which jumps to the stale instPC + 1 (c37_false_reserved)')
c('C38', 'partial', q5('c38_parity_partial c38_false'),
  'proved for programs that never name PSW/P as a destination; MOV PSW,#1 breaks it (c38_false), the hardware computes P')
c('C39', 'proved', q5('c39_reg_read c39_reg_write c39_bit_read c39_bit_write_iram c39_bit_write_sfr'))
c('C40', 'partial', q5('c40_relative_partial c40_false_64k c40_ljmp c40_ajmp c40_jmp_dptr_partial c40_history_partial c40_false_fetch'),
  'false for targets of exactly 0x10000 (c40_false_64k): PC leaves code memory and a dummy byte is executed (c40_false_fetch)')
c('C32', 'proved', q5('c32_nested c32_accept c32_taken c32_only_reti c32_enter c32_leave c32_after_reti execInst_levels'),
  'the 8051 core with arbitrary peripherals and arbitrary writes from outside; other cores not modelled')
c('C46', 'partial', q5('c46_first_partial c46_highest_partial c46_false'),
  'the first source in polling order is taken whatever the priorities (c46_false); the highest one only if priorities follow the polling order')
c('C41', 'partial', q5('c41_mode0 c41_mode1 c41_mode2 c41_mode3 c41_stopped c41_program c41_idle_false c41_accept_false'),
  'proved for the cycles the devices get, all modes, any number of cycles, and for every program that leaves the timers alone; cycles spent in Idle (c41_idle_false) and the cycle of accepting an interrupt (c41_accept_false) are counted by the simulator but not seen by the timers')
c('C47', 'proved', q5('c47_coherent'), 'timers switched on (hw->on); with arbitrary other devices')
c('C48', 'partial', q5('c48_rising_partial c48_falling_false c48_gate_false'),
  'the code counts rising edges: proved for mode 1; falling edges are not counted (c48_falling_false) and edges while GATE stops the counter are counted later (c48_gate_false)')
c('C49', 'proved', q5('c49_inst c49_step c49_run'),
  'PC inside of code memory (see C40); the reserved opcode 0xA5 counts one cycle')
c('C25', 'proved', q('c25_stores c25_chip c25_rom c25_high_false hex_hang_short hex_hang_no_end'),
  'areas below 0x10000, memories of up to 8 bits (a higher area cannot be written as 16-bit records: c25_high_false); into a plain chip and into the code memory. Files of fewer than two bytes, and files without end record, never finish (hex_hang_short, hex_hang_no_end)')
c('C26', 'partial', q('c26_text_partial c26_altered_partial c26_bad_records c26_length_false c26_digits_false'),
  'any file text: every store comes from a record in it whose checksum matches; one altered address, type, data or checksum byte is found out; an altered length byte may not be (c26_length_false); characters that are not hex digits are accepted (c26_digits_false)')
c('C27', 'partial', q('c27_bytes_partial c27_chip_partial c27_words_partial c27_word0_false c27_base_false c27_24bit_false c27_segment_false c27_odd_false'),
  'proved for memories of up to 8 bits with linear base records and for words of 16 and 32 bits at base 0; a wide memory gets location 0 overwritten (c27_word0_false), the base is not scaled (c27_base_false), 24-bit words are misplaced (c27_24bit_false), segment records are ignored (c27_segment_false), odd bytes are carried over (c27_odd_false)')
c('C28', 'partial', q('c28_stores_partial c28_chip_partial c28_covered c28_last_false c28_digits_false c28_wide_false s19_hang_short'),
  'proved for text files whose lines all end with a newline; the last line of a file without newline is dropped (c28_last_false); wrong digits count as zero (c28_digits_false); wide memories get wrong addresses (c28_wide_false)')
c('C29', 'partial', q('c29_shifted_partial c29_false c29_ff_false'),
  'false of every file with data: data is stored 3 addresses too high (c29_false, c29_shifted_partial); a byte 255 near the end of the file is stored as 0 (c29_ff_false)')
c('C50', 'partial', q5('c50_inst_partial c50_false_push_sp c50_false_movc c50_false_wrap'),
  'proved for all states and all opcodes but 0xA5, for locations that act like memory, except: PUSH SP pushes the old SP (c50_false_push_sp), MOVC above 64K does not wrap (c50_false_movc), a relative jump to 0x10000 does not wrap (c50_false_wrap, see C40); parity flag in C38; stack pointer and @Ri within internal memory')
c('C51', 'partial', q5('c51_program_partial'),
  'interrupts disabled (accepting one is C32), no power saving, the exceptions of C50 left out, PSW not named as a destination (C38), no jump to address 0 (which may be 0x10000 instead: C40)')
def qe(x): return ' '.join('Ucsim.Expr.' + y for y in x.split())
c('C52', 'partial', qe('c52_reads_partial c52_one_reading c52_accepts_partial c52_false_dot'),
  'proved for all texts without the bit operator ".": x . 2 == 1 can be derived in two ways with different values (c52_false_dot); which one bison takes is not part of the model')
c('C53', 'partial', qe('c53_eval_partial c53_eager_partial c55_eval_partial c53_condition_partial c53_pure c53_false_guard c53_false_skip c53_false_cut c53_false_reads'),
  'proved for expressions without assignments to bits or in operands C may skip, when reads have no effects; && || ?: evaluate everything (c53_false_guard divides by zero, c53_false_skip assigns), results are cut to 32 bits (c53_false_cut), an assignment reads its target (c53_false_reads)')
c('C54', 'partial', qe('c54_low_partial c54_below c54_false_lost c54_false_outside c54_false_value'),
  'proved for fields that begin at bit 0; others lose the value (c54_false_lost) or change bits outside (c54_false_outside); the value yielded is the whole word (c54_false_value)')
c('C55', 'proved', qe('c55_scan c55_number'), 'character literals left out')
c('C56', 'partial', qe('c56_known_partial c56_false_ignored c56_false_dot c56_false_example'),
  'false: an unknown name is taken for the end of the text, what follows is ignored (c56_false_ignored, for every text)')
c('C57', 'partial', q5('c57_coherent c57_pins c57_latch c57_cycles_partial c57_edges c57_accept c57_int0 c57_int1 c57_false_level'),
  'proved except that a level activated request is not withdrawn when the pin rises (c57_false_level)')
c('C58', 'proved', q5('c58_core c58_timers c58_xint c58_forgets c58_future Tim2.c58_timer2'),
  'c58_core with any devices; c58_forgets and c58_future for the machine of CPU, timers 0/1 and external interrupts; c58_timer2 for timer 2 (the reset of the serial line: C73 c73_ren, C74 c74_false_reset)')
c('C59', 'partial', q5('c59_sleep c59_wake_partial c59_false_timer c59_false_wake c59_false_pd c59_false_selfjump'),
  'sleeping proved for any devices and time; but peripherals stand still in Idle (c59_false_timer), one instruction is executed before the handler (c59_false_wake), an interrupt ends PowerDown (c59_false_pd), with selfjump stopping on Idle is never left (c59_false_selfjump)')
def q8(x): return ' '.join('Ucsim.I80.' + y for y in x.split())
c('C60', 'partial', q8('c60_step_partial c60_halt c60_program_partial c60_8080_partial c60_noac_partial c60_false_rst c60_false_adc c60_false_sbb c60_false_sbba c60_false_ac c60_false_ana c60_false_wrap c60_false_pop'),
  'all opcodes, states and programs of any length against a machine written from the manual, except the listed cases: RST 2,3,6,7 do nothing (c60_false_rst); ADC #FF / SBB of an equal byte with carry set lose the carry (c60_false_adc, _sbb, _sbba); AC wrong after some additions and subtractions (c60_false_ac) and after ANA on the 8080 (c60_false_ana) - everything but AC is proved right anyway (c60_noac_partial); LHLD/SHLD/XTHL at FFFF (c60_false_wrap); POP PSW on the 8080 (c60_false_pop); DAA see C61; IN/OUT/EI/DI/RIM/SIM have no effect in the simulator')
c('C61', 'partial', q8('c61_bcd_partial c61_small c61_false c61_false_carry'),
  'c61_bcd_partial gives the exact set of operands with the right sum (iff); all sums below 80 are (c61_small); 49+49 gives F8 (c61_false), 90+90 loses the carry (c61_false_carry)')
c('C62', 'partial', q8('c62_8085_partial c62_8080_partial c62_false_jcc c62_false_mov c62_false_self'),
  'proved for all opcodes but MOV A,H on the 8085 (c62_false_mov), XCHG and taken conditional jumps on the 8080 (c62_false_jcc: they count 0), and instructions that overwrite their own opcode (c62_false_self)')
c('C63', 'partial', q8('c63_text_partial c63_length c63_false_xra c63_false_length'),
  'proved for all documented instructions but XRA, which is shown as XOR (c63_false_xra); instructions in the processor specific tables are shown with length 1 (c63_false_length)')
c('C64', 'partial', q5('isCall_ok c64_step c64_call_partial c64_false_acall c64_false_acall_pc')+' '+q8('c64_false_i80')+' Ucsim.M65.isCall_ok Ucsim.M65.c64_m65_step Ucsim.M65.c64_m65_call_partial',
  '8051: proved for LCALL and ACALL but opcode 0x11 (ACALL to page 0), which is not known as a call (c64_false_acall); 8080/8085: no call is known as one (c64_false_i80); 6502: proved for all instructions (c64_m65_step, c64_m65_call_partial); no breakpoints or user stops in between')
c('C65', 'partial', q8('c65_arhl c65_rdel c65_lhlx_partial c65_shlx c65_rstv c65_dsub_partial c65_false_jx5 c65_false_ldhi c65_false_dsub'),
  'JNX5 and JX5 are exchanged (c65_false_jx5); LDHI/LDSI load from memory instead of adding (c65_false_ldhi); DSUB with BC=0 sets carry (c65_false_dsub); LHLX at FFFF excluded')
def q6(x): return ' '.join('Ucsim.M65.' + y for y in x.split())
c('C66', 'partial', q6('c66_step_partial c66_run_partial c66_binary_partial c66_undefined c66_reset c66_false_pointer c66_false_jmp c66_false_rts'),
  'all documented opcodes, states and programs of any length against a machine written from the manual (in decimal mode N, V, Z after ADC/SBC are undefined there), except: a zero page pointer at FF takes its high byte from 0100 (c66_false_pointer); JMP (xxFF) takes it from the next page (c66_false_jmp); RTS to FFFF+1 leaves the memory (c66_false_rts); ADC/SBC in decimal mode on bytes that are not decimal; no interrupt requested (C69)')
c('C67', 'proved', q6('c67_adc c67_sbc c67_addAll c67_subAll'))
c('C68', 'partial', q6('c68_clocks_partial c68_false_nop c68_false_jsr c68_false_brk c68_false_indexed'),
  'proved for all instructions and operands but NOP (1), JSR (3), BRK (8) and some indexed stores and read-modify-writes (c68_false_indexed)')
c('C69', 'partial', q6('c69_irq_partial c69_nmi_partial c69_brk_partial c69_rti c69_false_nmi_blocked c69_false_nmi_again c69_false_brk_nested c69_false_irq_blocked'),
  'proved while no other service is in progress, and RTI for every handler; but NMI is not taken in an IRQ or BRK handler (c69_false_nmi_blocked), is taken again while its line is active (c69_false_nmi_again), BRK in a BRK handler is skipped (c69_false_brk_nested), CLI in a handler does not let IRQ in (c69_false_irq_blocked)')
c('C70', 'partial', q6('c70_text_partial c70_length_partial c70_false_indy c70_false_zp c70_false_length'),
  'proved for all documented instructions but those with zero page and (zp),Y operands (c70_false_zp, c70_false_indy); undocumented opcodes have length 0 (c70_false_length)')
def qu(x): return ' '.join('Ucsim.S51.Uart.' + y for y in x.split())
c('C71', 'proved', qu('c71_order c71_all c71_last'))
c('C72', 'partial', qu('c72_send_partial c72_ti_partial c72_receive_partial c72_false_mode2 c72_false_two_timers c72_false_mode0 c72_false_back'),
  'proved for mode 0 and modes 1, 3 with one timer running; mode 2 is twice too fast (c72_false_mode2); with timer 2 as generator timer 1 is counted too (c72_false_two_timers), mode 0 changes its rate (c72_false_mode0), and the rate stays when timer 2 is deselected (c72_false_back)')
c('C73', 'partial', qu('c73_ren c73_prefix_partial c73_all_partial c73_binary_partial c73_false_newline c73_false_key'),
  'proved for every input without CR LF LF and LF CR CR (c73_false_newline: a line end is lost), or nl=0, from files and sockets; a key pressed while a character waits is lost (c73_false_key)')
c('C74', 'partial', qu('c74_flow_partial c74_file_partial c74_false_overrun c74_false_two c74_false_reset'),
  'proved for a new line of at most one character and no reset; two characters overrun (c74_false_two); a reset stops the input (c74_false_reset); without flow control bytes are overwritten (c74_false_overrun)')
def q2(x): return ' '.join('Ucsim.S51.Tim2.' + y for y in x.split())
c('C75', 'partial', q2('c75_baud c75_capture_partial c75_reload_partial c75_updown_partial c75_period_partial c75_overflows c75_false_counter c75_false_dcen c75_false_clear_tf2 c75_false_dcen_off c75_false_exf2 c75_false_underflow'),
  'baud rate generator proved in all reachable states; capture and reload proved for C/T2=0 (with C/T2=1 machine cycles are counted instead of edges, c75_false_counter); up/down proved when DCEN was set after the last write of T2CON, EXF2 aside: any write of T2CON makes it count up (c75_false_dcen, c75_false_clear_tf2), clearing DCEN has no effect (c75_false_dcen_off), P1.6 changes instead of EXF2 (c75_false_exf2), RCAP2=0 and values below RCAP2 (c75_false_underflow)')
c('C76', 'partial', q2('c76_capture c76_reload_partial c76_disabled c76_false_old_edge'),
  'an edge while EXEN2 is clear is acted on when EXEN2 is set later (c76_false_old_edge); everything else proved: edges since the last cycle with EXEN2 set')
def qb(x): return ' '.join('Ucsim.S51.Baud.' + y for y in x.split())
c('C77', 'partial', qb('c77_send_partial c77_rate_partial c77_false_deselect'),
  'proved for sending in modes 1 and 3 while timer 2 stays selected (but for resets) and timer 1 does not overflow meanwhile; after deselecting the bit time is wrong (c77_false_deselect)')
def qf(x): return ' '.join('Ucsim.Fio.' + y for y in x.split())
c('C78', 'partial', qf('c78_order_partial c78_all_partial c78_end_partial c78_avail_partial c78_ff_false c78_ff_end_false'),
  'proved for files without the byte 0xff, which is lost (c78_ff_false) and may be taken for the end of the file (c78_ff_end_false)')
c('C79', 'partial', qf('c79_order_partial c79_all_partial c79_mixed_false c79_ff_false'),
  'proved for files that end their lines in one way throughout and have no NUL, 0xff or ^C; when the way changes a line end is lost (c79_mixed_false); a byte 0xff can stop the console early (c79_ff_false)')
c('C80', 'partial', qf('c80_edit_partial c80_lines_partial c80_long_partial c80_false_high c80_false_newline c80_false_escape c80_false_full'),
  'proved for all lists of the keys in Spec/Edit.lean on terminals that use one line end throughout, lines delivered if the buffer of 1023 characters is not overrun (sessions of up to 1023 characters, or lines of up to 924 characters without the history); false for characters above 0x7f, mixed line ends, unknown escape sequences, lines of 1023 characters')
c('C81', 'proved', qf('c81_shows c81_shows_any'),
  'for all sequences of bytes, on a terminal of unlimited width (echo as terminal operations, no colours)')
c('C82', 'partial', qf('c82_browse_partial c82_false_draft c82_false_edit'),
  'proved for looking (any sequence of Up and Down from an empty line, up to 1000 lines); false: the line being typed is lost, editing a recalled line changes the history')
c('C83', 'partial', qf('c83_line_partial c83_keys_partial c83_false_escape c83_false_mouse'),
  'the line buffer is safe for all bytes, all buffers for the keys of terminals; false for long escape sequences (esc_buffer overrun) and unknown mouse buttons (isprint of a value that is not a character)')
def qi(s): return ' '.join('Ucsim.Simif.'+x for x in s.split())
c('C84', 'partial', qi('c84_commands_partial c84_limit c84_pipe_partial c84_false_stop c84_false_ff c84_false_info c84_false_getlimit c84_false_wide'),
  'proved for cells of 8 bits and input without the byte 0xff, with the answers the code gives to stop, cmdinfo and getlimit; these differ from the documentation (c84_false_stop, _info, _getlimit), 0xff is answered by an uninitialised value (c84_false_ff), bytes above 0x7f are sign extended in wide cells (c84_false_wide)')
c('C85', 'partial', qi('c85_any_partial c85_resync_partial c85_false_reset_args c85_false_reset_answer'),
  'the machine of three phases for all sequences of accesses; the reset command does not reset (taken as an argument or ignored), but four of them and enough reads do')

def qz(x): return ' '.join('Ucsim.Z80.' + y for y in x.split())
c('C86', 'partial', qz('c86_step_partial c86_program_partial c86_blockio_partial c86_false_adc c86_false_sbc c86_false_adchl c86_false_sbchl c86_false_rot c86_false_in c86_false_rrd c86_false_rld c86_false_stHL c86_false_ldHL c86_false_push c86_false_pop c86_false_retn c86_false_reti c86_false_cpi c86_false_cpir c86_false_cpd c86_false_cpdr c86_false_outi c86_false_ini c86_false_call c86_false_jr c86_false_jr_back'),
  'all documented instructions, states and programs of any length against a machine written from the manual, except the cases of Spec/Z80Diff.lean: each has a witness: H after ADC/SBC with an operand ending in F and carry, P/V of rotations taken from A, flags of IN r,(C), RRD, RLD, 16 bit accesses at FFFF, stack over the ends of the memory, RETN/RETI and IFF, flags of CPI/CPIR, CPD going up, CPDR, OUTI to the wrong port, N of block i/o, CALL over its own operand, JR over the ends of the memory')
c('C87', 'partial', qz('c87_step_partial c87_program_partial c87_false_inc c87_false_dec c87_false_bit c87_false_out c87_false_self c87_false_end'),
  'proved for all documented instructions but INC (HL), DEC (HL), BIT b,(HL) and OUT (C),E, instructions that overwrite their own opcode (c87_false_self) or lie over the end of the memory (c87_false_end)')
c('C88', 'partial', qz('c88_copy c88_bytewise c88_found c88_absent c88_false_cpdr'),
  'LDIR, LDDR, CPIR proved; CPDR stops at the byte, not behind it (c88_false_cpdr)')

c('C89', 'proved', qz('c89_add c89_sub'))
c('C90', 'partial', qz('c90_text_partial c90_length_partial c90_call c90_false_ed c90_false_add c90_false_ldi c90_false_case'),
  'proved for all documented instructions but LD dd,(nn) and LD (nn),dd with ED (shown as nnnn, two bytes: c90_false_ed), length of ADD HL,DE (c90_false_add), LD I,A / LD A,I (c90_false_ldi), and a few with other letter case or blanks, SUB with A (c90_false_case); calls proved for all')
c('C91', 'partial', qz('c91_refresh_partial c91_reset_partial c91_false_prefix c91_false_reset'),
  'R proved for instructions without prefix (with one, one of two fetches is counted: c91_false_prefix); reset leaves I and R (c91_false_reset)')

def qc(x): return ' '.join('Ucsim.Cmd.' + y for y in x.split())
c('C92', 'partial', qc('c92_arguments_partial c92_safe_partial c92_separators c92_safe_false c92_numbers_false c92_dropped_false c92_quoted_false'),
  'proved for numbers below 2^63 and lines without $ and backslash outside of strings; false of the code: lines ending in a backslash or $, and unterminated quoted file names are read past the end (c92_safe_false), 12ab is 12 (c92_numbers_false), wrong arguments are dropped and the others move up (c92_dropped_false), text after a quoted file name with an escape is lost (c92_quoted_false)')
c('C93', 'partial', qc('c93_sequence_partial c93_comment c93_string_false c93_quit_false'),
  'proved but for the command `commands`, which takes the rest of the line, and ; in strings of commands with subcommands (c93_string_false); quit;pc does not quit (c93_quit_false)')
c('C94', 'partial', qc('c94_lookup c94_run c94_repeat c94_blank_false c94_frozen'),
  'names, subcommands and repetition proved; a blank or a comment makes the console forget the command (c94_blank_false); a line entered while the simulation runs is not executed (c94_frozen)')
c('C95', 'partial', qc('c95_list_partial c95_bits_partial c95_name_false c95_wide_false c95_beyond_false c95_bits_false c95_shadow_false'),
  'proved for numbers and strings as data on locations without peripherals; names as data store garbage (c95_name_false), characters from 128 on are sign extended (c95_wide_false), data beyond the end are dropped silently (c95_beyond_false), 32 bits at once are undefined (c95_bits_false), variables hide memories (c95_shadow_false)')
def qd(x): return ' '.join('Ucsim.Dump.' + y for y in x.split())
c('C96', 'partial', qd('c96_up_partial c96_down_partial c96_start c96_unique c96_zero_false c96_down_false'),
  'proved for all memories below address 0xffffffff and ranges upwards, and downwards inside of the memory above 0; false: 0 values on a line never ends (c96_zero_false), down to 0, from above or to below the memory shows nothing (c96_down_false)')
c('C97', 'partial', qd('c97_again_partial c97_last_false c97_next_false'),
  'proved for any number of repetitions unless one location is left over: this is never shown (c97_last_false); the same after a dump up to the last but one location (c97_next_false)')
c('C98', 'partial', qd('c98_names_partial c98_code c98_lines_false'),
  'names proved for ranges upwards, code proved; without addresses the ten lines are not kept when a location with two names is at the border (c98_lines_false)')
c('C99', 'partial', qd('c99_string c99_bytes_partial c99_whole c99_reads_false c99_back_false'),
  'contents proved; dump /b also reads the location after the last (c99_reads_false); the octal escapes are not understood by set memory (c99_back_false)')
def qh(x): return ' '.join('Ucsim.H08.' + y for y in x.split())
c('C100', 'partial', qh('c100_step_partial c100_run_partial c100_open c100_undefined c100_swi_partial c100_wait_partial c100_rsp_partial c100_dbnz_partial c100_false_swi c100_false_wait c100_false_stop c100_false_rsp c100_false_dbnz c100_false_own c100_false_store c100_false_jmp c100_false_branch'),
  'proved for all instructions outside of the listed differences (Spec/H08Diff), each of which is shown: SWI enables interrupts, WAIT and STOP do not wait, RSP sets all of SP, DBNZ changes flags and reads its offset late, stores and jumps beyond FFFF do not wrap around')
c('C101', 'partial', qh('c101_manual c101_daa_partial c101_false_digits'),
  'the carry is right; A is never corrected (c101_false_digits)')
c('C102', 'partial', qh('c102_hcs08_partial c102_hc08_partial c102_false_hc08 c102_false_hcs08'),
  'exact lists of the instructions whose cycles differ (the M68HC08 mostly gets the cycles of the HCS08)')
c('C103', 'partial', qh('c103_reset_partial c103_false_mask c103_false_pc'),
  'the vector is taken at the first step, so a PC set after reset is lost (c103_false_pc); I is clear (c103_false_mask)')
c('C104', 'partial', qh('c104_text_partial c104_length_partial c104_next_partial c104_false_bsr c104_false_dbnz c104_false_hcs c104_false_mov c104_false_dbnzx'),
  'proved for all but BSR and DBNZ (text) and three lengths, each shown')
c('C105', 'proved', qh('c105_accesses c105_pointer c105_block c105_window c105_fixed c105_reset'),
  'decoders and banker taken as the map they describe (C06-C08)')
c('C106', 'proved', qh('c106_call c106_rtc c106_round'), 'stack in RAM')
c('C107', 'partial', qh('c107_own_partial c107_others_partial c107_false_length c107_false_hcs08'),
  'CALL and RTC only: every other instruction is listed as if it began one byte later, the additional instructions of the HCS08 are refused')
def q4(x): return ' '.join('Ucsim.I48.' + y for y in x.split())
c('C108', 'partial', q4('c108_inst_partial c108_run_partial c108_step c108_undefined c108_reset c108_wf c108_reset_state c108_false_addc c108_false_djnz c108_false_loop c108_false_page c108_false_isr c108_false_movp3 c108_false_movd c108_false_ram c108_false_pins'),
  'proved for all instructions outside of the listed differences (Spec/I48Diff), each of which is shown: ADDC A,@Rr is missing, DJNZ counts R7 and always jumps, jumps at the end of a page, long jumps in interrupt routines, MOVP3 in the upper bank, the expander clears port 2, data memory is not mirrored')
c('C109', 'proved', q4('c109_ret c109_retr c109_irq c109_balance'), '')
c('C110', 'partial', q4('c110_pre c110_reset c110_timer_partial c110_stopped c110_start c110_jtf c110_false_rate c110_false_rate2 c110_false_counter'),
  'closed form for any number of clocks; one count takes 512 clocks instead of 160 (c110_false_rate), T1 is never counted (c110_false_counter)')
c('C111', 'partial', q4('c111_external c111_none c111_resume c111_false_timer c111_false_timer_case'),
  'external interrupt proved; the interrupt of the timer never happens (c111_false_timer)')
c('C112', 'partial', q4('c112_cycles_partial c112_false'), 'all but ANL A,#, ENT0 CLK and MOV @Rr,A, which are wrong in every state')
c('C113', 'proved', q4('c113_bcd'), '')
c('C114', 'partial', q4('c114_in c114_rmw c114_other c114_expander c114_false_expander'), 'the expander clears the upper half of port 2 (c114_false_expander)')
c('C115', 'proved', q4('c115_select c115_write'), '')
c('C116', 'partial', q4('c116_text_partial c116_length_partial c116_next_partial c116_false_names c116_false_addc c116_false_page c116_false_length c116_false_call c64_false_i48'),
  'proved but for ADDC and ANLD (names), ENT0 CLK and ANL BUS,# (lengths), jumps in the last byte of a page; CALL is not known to be a call')
def qa(x): return ' '.join('Ucsim.Avr.' + y for y in x.split())
c('C117', 'partial', qa('c117_step_partial c117_invalid_partial c117_program_partial c117_false c117_false_invalid c117_false_end c117_false_sleep'),
  'holds for all programs whose instructions are not in Differs (Spec/AvrDiff); one witness for each deviation in c117_false; some words that are no instructions are executed, SLEEP is not obeyed, PC can leave the memory')
c('C118', 'partial', qa('c118_push_pop_partial c118_call_return_partial c118_false'),
  'proved for stacks in the 0x80 cells the data memory has; above, every cell is the same one (c118_false)')
c('C119', 'proved', qa('c119_add'), '')
c('C120', 'partial', qa('c120_sub_partial c120_false'), 'one byte; SBC gives 0 or 1 (c120_false), so that it is false of two or more bytes')
c('C121', 'partial', qa('c121_cycles_partial c121_false'), 'all but IJMP, LDS, STS, LPM Rd, the multiplications but MUL, and skips over two words, which are wrong')
c('C122', 'partial', qa('c122_skip_partial c122_false'), 'SBIC/SBIS take the length of another instruction; skips over instructions unknown to the disassembler fail')
c('C123', 'partial', qa('c123_length c123_known_partial c123_call_partial c123_target_partial c123_false'),
  'lengths of all words; targets of jumps, calls, branches; registers are shown wrong, 832 words as unknown, RCALL and ICALL are not calls')
def qv(x): return ' '.join('Ucsim.Vcd.' + y for y in x.split())
c('C124', 'partial', qv('c124_dump_partial c124_stop_partial c124_false_set c124_false_bit c124_false_ro c124_false_operator c124_false_two'),
  'changes by writes to the watched cells themselves (not by set, not through a bit space), which are writable and have no later operator; the others are recorded wrong')
c('C125', 'partial', qv('c125_playback_partial c125_false c125_false_short'),
  'recordings without pauses in which no vector has the identifier 0 or 1; those are not restored, and short vectors are read wrong')
c('C126', 'partial', qv('c126_ids_partial c126_ready_partial c126_started c126_add c126_del_partial c126_false_cell c126_false_order c126_false_ids'),
  'up to 94 additions; deleting by bits; whole cells and high/low pairs are not found by del')
def qp(x): return ' '.join('Ucsim.P15.' + y for y in x.split())
c('C127', 'partial', qp('c127_alu_partial c127_false_div'), 'all operations but DIV, which does nothing')
c('C128', 'partial', qp('c128_reg_partial c128_imm_partial c128_one c128_false_btst'), 'all operations but BTST, which overwrites its register')
c('C129', 'proved', qp('c129_branch_reg c129_branch_imm c129_after'), '')
c('C130', 'proved', qp('c130_skip_p1516 c130_skip_p2223'), '')
c('C131', 'proved', qp('c131_call_p1516 c131_call_p2223 c131_return_p1516 c131_return_p2223'), '')
c('C132', 'proved', qp('c132_ld_p1516 c132_st_p1516 c132_const_p1516 c132_load_p2223 c132_store_p2223 c132_direct_p2223 c132_push_pop'), '')
c('C133', 'proved', qp('c133_putb c133_getb'), '')
c('C134', 'partial', qp('c134_p1516_partial c134_p2223_partial c134_false_muh c134_false_ret c134_false_cond c134_false_or c134_false_push c134_false_st'),
  'all words whose text names an instruction, but DIV, BTST, words shown as ret or push/pop that are others, and condition 15; these are shown wrong; sed, rds and wrs are not described')
c('C135', 'proved', qp('c135_add_p1516 c135_sub_p1516 c135_add_p2223 c135_sub_p2223'), '')
c('C136', 'partial', qp('c136_pc_partial c136_break_partial c136_false_break c136_false_invalid'), 'not after an invalid instruction of the P2223; clocks are counted at breakpoints')
c('C137', 'proved', qp('c137_rotate_p1516 c137_rotate_p2223'), '')
def qk(x): return ' '.join('Ucsim.Pdk.' + y for y in x.split())
c('C138', 'partial', qk('c138_ak_partial c138_am_partial c138_ma_partial c138_c_am_partial c138_c_ma_partial c138_c_a_partial c138_c_m_partial c138_inc_partial c138_comp_partial c138_nadd_value_partial c138_false_nadd c138_false_nadd_differs'),
  'all but the flags of nadd, which are wrong')
c('C139', 'proved', qk('c139_long_add'), '')
c('C140', 'proved', qk('c140_logic c140_shift_a c140_shift_m c140_unary_a c140_unary_m c140_clear c140_xch c140_mov_ma c140_mov_am c140_mov_ak c140_swap c140_idxm_am c140_idxm_ma c140_bit_m c140_io c140_bit_io c140_xor_io c140_swapc c140_mul c140_t16'), '')
c('C141', 'partial', qk('c141_balanced c141_call_ret_partial c141_push_pop_partial c141_false'), 'false where SP is 255')
c('C142', 'partial', qk('c142_tsn_m_partial c142_tsn_io_partial c142_ceq_partial c142_izs_a_partial c142_izs_m_partial c142_false'), 'false at the word 4094')
c('C143', 'partial', qk('c143_goto_partial c143_pcadd_partial c143_cycles_partial c143_invalid c143_false'), 'ret and taken skips count one cycle')
c('C144', 'proved', qk('c144_private'), '')
c('C145', 'partial', qk('c145_turns_partial c145_ends_partial c145_fair_partial c145_false'), 'false if FPPEN holds only bits of processors that do not exist: the simulator hangs')
c('C146', 'proved', qk('c146_stopped c146_stops c146_reset_starts'), '')
c('C147', 'partial', qk('c147_reset_partial c147_false c147_false_instruction'), 'FPPEN, SP and the turn are not reset, CLKMD is 0')
c('C149', 'partial', qk('Hw.c149_count_partial Hw.c149_chunks_partial Hw.c149_irq_partial Hw.c149_reset Hw.c149_false Hw.c149_false_pin'),
  'the interrupt when no instruction takes 2^b counts or more (else it may be missed); pins are never counted; clock counts below 2^32')
c('C150', 'partial', qk('Hw.c150_fires_partial Hw.c150_kept_partial Hw.c150_off Hw.c150_false'),
  'when it was enabled by the program; the watchdog is off after a reset')
c('C148', 'partial', qk('Dis.c148_shown_partial Dis.c148_invalid_partial Dis.c148_same_partial Dis.c148_false_call Dis.c148_false_unknown Dis.c148_false_bits Dis.c148_false_ghost'),
  'not: disgint (shown disint), memory bits of PDK13, t0sn/t1sn of memory, call and goto of PDK15, comp m,a of PDK14, subc m of PDK13; reti, putchar, cneqsn of PDK13 and ldtabl are shown but not executed')
qm = lambda s: ' '.join('Ucsim.' + x for x in s.split())
c('C151', 'proved', qm('Misc.c151_step Misc.c151_programs Misc.c151_reset'), '')
c('C152', 'proved', qm('Misc.c152_shift'), '')
c('C153', 'proved', qm('Misc.c153_compare'), '')
c('C154', 'proved', qm('Misc.c154_call Misc.c154_return Misc.c154_call_return'), '')
c('C155', 'partial', qm('Misc.c155_text_partial Misc.c155_false_pc6'), 'the source PC+6 is shown as PC+8')
c('C156', 'proved', qm('Em.c156_step Em.c156_programs'), '')
c('C157', 'proved', qm('Em.c157_stack'), '')
c('C158', 'partial', qm('Em.c158_dis_partial Em.c158_regs_partial Em.c158_false_dis Em.c158_false_acc'),
  'showing an instruction whose source is [P++] or [A++] moves the pointer')
c('C159', 'partial', qm('Urisc.c159_step_partial Urisc.c159_compare_partial Urisc.c159_false_not_shown Urisc.c159_false_shown_often Urisc.c159_false_jump Urisc.c159_false_overflow'),
  'only if the registers have been shown exactly once; moves to and from PC do nothing and O is wrong')
c('C160', 'partial', qm('Pb.c160_step_partial Pb.c160_program_partial Pb.c160_above_false Pb.c160_star_false Pb.c160_outputk_false Pb.c160_scratch_false Pb.c160_comparecy_false Pb.c160_last_false'),
  'instructions below 0x3FF, not STAR and OUTPUTK, addresses within the scratch pad, no COMPARECY with 0xFF and C; in the other cases the simulator differs from the guides (witnesses); at most 30 nested calls')
c('C161', 'partial', qm('Pb.c161_accept_partial Pb.c161_off Pb.c161_back_partial Pb.c161_zero_false'),
  'not when the next instruction is at 0: the return goes to 0x1000; the register bank of KCPSM6 is not looked at')
c('C162', 'partial', qm('Pb.c162_text_partial Pb.c162_false'), 'not CALL C and CALL Z of KCPSM6, whose texts are interchanged')
