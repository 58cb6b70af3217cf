'LinuxLoader.C01_capacity' depends on axioms: [propext, Classical.choice, Quot.sound]
'LinuxLoader.C01_text_fits' depends on axioms: [propext, Classical.choice, Quot.sound]
'LinuxLoader.C02_rejected_unchanged' depends on axioms: [propext, Classical.choice, Quot.sound]
'LinuxLoader.C02_history' depends on axioms: [propext, Classical.choice, Quot.sound]
'LinuxLoader.C03_no_panic' depends on axioms: [propext, Classical.choice, Quot.sound]
'LinuxLoader.C03_no_panic_render' depends on axioms: [propext, Classical.choice, Quot.sound]
'LinuxLoader.C04_insert_str' depends on axioms: [propext, Classical.choice, Quot.sound]
'LinuxLoader.C04_trimmed_total' depends on axioms: [propext, Classical.choice, Quot.sound]
'LinuxLoader.C05_insert_init_args' depends on axioms: [propext, Classical.choice, Quot.sound]
'LinuxLoader.C05_condition_is_fit' depends on axioms: [propext, Classical.choice, Quot.sound]
'LinuxLoader.C05_blank_is_charged' depends on axioms: [propext, Classical.choice, Quot.sound]
'LinuxLoader.C06_ordered_join' depends on axioms: [propext, Classical.choice, Quot.sound]
'LinuxLoader.C06_fold' depends on axioms: [propext, Classical.choice, Quot.sound]
'LinuxLoader.C06_trace_exists' depends on axioms: [propext, Classical.choice, Quot.sound]
'LinuxLoader.C06_joinSp' depends on axioms: [propext]
'LinuxLoader.C07_printable' depends on axioms: [propext, Classical.choice, Quot.sound]
'LinuxLoader.C08_printable' depends on axioms: [propext, Classical.choice, Quot.sound]
'LinuxLoader.C08_nonprintable_kept' depends on axioms: [propext, Classical.choice, Quot.sound]
'LinuxLoader.C08_refuted' depends on axioms: [propext, Classical.choice, Quot.sound]
'LinuxLoader.C08_refuted_nul' depends on axioms: [propext, Classical.choice, Quot.sound]
'LinuxLoader.C09_as_cstring' depends on axioms: [propext, Classical.choice, Quot.sound]
'LinuxLoader.C09_vec' depends on axioms: [propext, Classical.choice, Quot.sound]
'LinuxLoader.C09_bytes_are_utf8' depends on axioms: [propext, Quot.sound]
'LinuxLoader.C10_insert' depends on axioms: [propext, Classical.choice, Quot.sound]
'LinuxLoader.C10_total' depends on axioms: [propext, Classical.choice, Quot.sound]
'LinuxLoader.C11_insert_multiple' depends on axioms: [propext, Classical.choice, Quot.sound]
'LinuxLoader.C11_total' depends on axioms: [propext, Classical.choice, Quot.sound]
'LinuxLoader.C11_single' depends on axioms: [propext]
'LinuxLoader.C12_rendered' depends on axioms: [propext, Classical.choice, Quot.sound]
'LinuxLoader.C12_rendered_composes' depends on axioms: [propext, Classical.choice, Quot.sound]
'LinuxLoader.C12_kernel_composes' depends on axioms: [propext, Classical.choice, Quot.sound]
'LinuxLoader.C12_pair_exact' depends on axioms: [propext, Classical.choice, Quot.sound]
'LinuxLoader.C12_pair_alone' depends on axioms: [propext, Classical.choice, Quot.sound]
'LinuxLoader.C12_kernel_sees_pairs' depends on axioms: [propext, Classical.choice, Quot.sound]
'LinuxLoader.C12_unbalanced_breaks' depends on axioms: [propext, Classical.choice, Quot.sound]
'LinuxLoader.C12_refuted_key' depends on axioms: [propext, Classical.choice, Quot.sound]
'LinuxLoader.C12_refuted_value' depends on axioms: [propext, Classical.choice, Quot.sound]
'LinuxLoader.C12_refuted_empty_key' depends on axioms: [propext, Classical.choice, Quot.sound]
'LinuxLoader.C13_virtio' depends on axioms: [propext, Classical.choice, Quot.sound]
'LinuxLoader.C13_text' depends on axioms: [propext, Classical.choice, Quot.sound]
'LinuxLoader.C13_injective' depends on axioms: [propext, Classical.choice, Quot.sound]
'LinuxLoader.C14_split' depends on axioms: [propext, Classical.choice, Quot.sound]
'LinuxLoader.C14_split_unique' depends on axioms: [propext, Classical.choice, Quot.sound]
'LinuxLoader.C15_accepts_iff_fits' depends on axioms: [propext, Classical.choice, Quot.sound]
'LinuxLoader.C16_reparse' depends on axioms: [propext, Classical.choice, Quot.sound]
'LinuxLoader.C16_refuted_for_tabs' depends on axioms: [propext, Classical.choice, Quot.sound]
'LinuxLoader.C17_equality' depends on axioms: [propext]
'LinuxLoader.C18_congruence' depends on axioms: [propext, Classical.choice, Quot.sound]
'LinuxLoader.C18_parsed_congruence' depends on axioms: [propext, Classical.choice, Quot.sound]
'LinuxLoader.C18_init_congruence' depends on axioms: [propext, Classical.choice, Quot.sound]
'LinuxLoader.C18_refuted' depends on axioms: [propext, Classical.choice, Quot.sound]
'LinuxLoader.C19_exact' depends on axioms: [propext, Classical.choice, Quot.sound]
'LinuxLoader.C19_text' depends on axioms: [propext, Classical.choice, Quot.sound]
'LinuxLoader.C20_decision' depends on axioms: [propext, Classical.choice, Quot.sound]
'LinuxLoader.C20_no_memory' depends on axioms: [propext, Classical.choice, Quot.sound]
'LinuxLoader.C21_failure_frame' depends on axioms: [propext, Classical.choice, Quot.sound]
'LinuxLoader.C21_frame' depends on axioms: [propext, Classical.choice, Quot.sound]
'LinuxLoader.C22_sparse_image' depends on axioms: [propext, Classical.choice, Quot.sound]
'LinuxLoader.C23_append' depends on axioms: [propext, Quot.sound]
'LinuxLoader.C23_at_address' depends on axioms: [propext, Classical.choice, Quot.sound]
'LinuxLoader.C23_modules' does not depend on any axioms
'LinuxLoader.C23_append_all' depends on axioms: [propext, Quot.sound]
'LinuxLoader.C24_outcome' depends on axioms: [propext, Classical.choice, Quot.sound]
'LinuxLoader.C24_exclusive' depends on axioms: [propext, Quot.sound]
'LinuxLoader.C24_failure_unchanged' depends on axioms: [propext, Classical.choice, Quot.sound]
'LinuxLoader.C24_eager_overflow' does not depend on any axioms
'LinuxLoader.C25_refuted' depends on axioms: [propext]
'LinuxLoader.C25_refuted_pvh' depends on axioms: [propext, Quot.sound]
'LinuxLoader.C25_existing_list' depends on axioms: [propext, Classical.choice, Quot.sound]
'LinuxLoader.C26_refuted' depends on axioms: [propext]
'LinuxLoader.C26_no_panic' depends on axioms: [propext, Classical.choice, Quot.sound]
'LinuxLoader.C26_no_panic_modules' depends on axioms: [propext, Classical.choice, Quot.sound]
'LinuxLoader.C27_independent' depends on axioms: [propext]
'LinuxLoader.C27_commute' depends on axioms: [propext]
'LinuxLoader.C28_success' depends on axioms: [propext, Classical.choice, Quot.sound]
'LinuxLoader.C28_header_only' depends on axioms: [propext]
'LinuxLoader.C28_failure' depends on axioms: [propext, Classical.choice, Quot.sound]
'LinuxLoader.C29_refuted' depends on axioms: [propext, Classical.choice, Quot.sound]
'LinuxLoader.C29_exact' depends on axioms: [propext, Classical.choice, Quot.sound]
'LinuxLoader.C30_fdt' depends on axioms: [propext, Classical.choice, Quot.sound]
'LinuxLoader.C31_success' depends on axioms: [propext, Classical.choice, Quot.sound]
'LinuxLoader.C31_disjoint' depends on axioms: [propext, Classical.choice, Quot.sound]
'LinuxLoader.C32_first_obstacle' depends on axioms: [propext, Classical.choice, Quot.sound]
'LinuxLoader.C32_frame' depends on axioms: [propext, Classical.choice, Quot.sound]
'LinuxLoader.C33_refuted' depends on axioms: [propext, Quot.sound]
'LinuxLoader.C33_early_failure' depends on axioms: [propext, Classical.choice, Quot.sound]
'LinuxLoader.C34_pvh_round_trip' depends on axioms: [propext, Classical.choice, Quot.sound]
'LinuxLoader.C35_elf_segments_in_place' depends on axioms: [propext, Classical.choice, Quot.sound]
'LinuxLoader.C35_elf_segments_complete' depends on axioms: [propext, Classical.choice, Quot.sound]
'LinuxLoader.C35_elf_rest_unchanged' depends on axioms: [propext, Classical.choice, Quot.sound]
'LinuxLoader.C35_elf_disjoint_segments' depends on axioms: [propext, Classical.choice, Quot.sound]
'LinuxLoader.C36_elf_accepts_only_valid' depends on axioms: [propext, Classical.choice, Quot.sound]
'LinuxLoader.C36_elf_header_errors' depends on axioms: [propext, Classical.choice, Quot.sound]
'LinuxLoader.C37_elf_result_fields' depends on axioms: [propext, Classical.choice, Quot.sound]
'LinuxLoader.C38_kernel_end_exact' depends on axioms: [propext, Classical.choice, Quot.sound]
'LinuxLoader.C38_kernel_end_bounds' depends on axioms: [propext, Classical.choice, Quot.sound]
'LinuxLoader.C38_kernel_end_refuted' depends on axioms: [propext]
'LinuxLoader.C38_bss_end_refuted' depends on axioms: [propext]
'LinuxLoader.C39_elf_highmem' depends on axioms: [propext, Classical.choice, Quot.sound]
'LinuxLoader.C39_elf_highmem_error' depends on axioms: [propext, Classical.choice, Quot.sound]
'LinuxLoader.C40_elf_never_panics' depends on axioms: [propext, Classical.choice, Quot.sound]
'LinuxLoader.C41_pvh_note_parser' depends on axioms: [propext, Classical.choice, Quot.sound]
'LinuxLoader.C41_pvh_capability_of_notes' depends on axioms: [propext, Classical.choice, Quot.sound]
'LinuxLoader.C41_short_descriptor_rejected' depends on axioms: [propext, Classical.choice, Quot.sound]
'LinuxLoader.C42_pvh_ignored_with_offset' depends on axioms: [propext, Classical.choice, Quot.sound]
'LinuxLoader.C42_pvh_of_last_note' depends on axioms: [propext, Classical.choice, Quot.sound]
'LinuxLoader.C42_any_note_refuted' depends on axioms: [propext]
'LinuxLoader.C43_offset_is_a_shift' depends on axioms: [propext, Classical.choice, Quot.sound]
'LinuxLoader.C44_elf_frame' depends on axioms: [propext, Classical.choice, Quot.sound]
'LinuxLoader.C44_elf_bytes' depends on axioms: [propext, Classical.choice, Quot.sound]
'LinuxLoader.C44_elf_scatter_refuted' depends on axioms: [propext]
'LinuxLoader.C44_bz_bytes' depends on axioms: [propext, Classical.choice, Quot.sound]
'LinuxLoader.C44_bz_frame' depends on axioms: [propext, Classical.choice, Quot.sound]
'LinuxLoader.C44_bz_short_read_refuted' depends on axioms: [propext]
'LinuxLoader.C44_pe_bytes' depends on axioms: [propext, Classical.choice, Quot.sound]
'LinuxLoader.C44_pe_frame' depends on axioms: [propext, Classical.choice, Quot.sound]
'LinuxLoader.C44_dtb_frame' depends on axioms: [propext, Classical.choice, Quot.sound]
'LinuxLoader.C44_dtb_bytes' depends on axioms: [propext, Classical.choice, Quot.sound]
'LinuxLoader.C45_elf_position_irrelevant' depends on axioms: [propext]
'LinuxLoader.C45_bz_position_irrelevant' depends on axioms: [propext]
'LinuxLoader.C45_pe_position_irrelevant' depends on axioms: [propext]
'LinuxLoader.C45_dtb_position_irrelevant' depends on axioms: [propext]
'LinuxLoader.C46_bz_accepts' depends on axioms: [propext, Classical.choice, Quot.sound]
'LinuxLoader.C46_bz_rejects' depends on axioms: [propext, Classical.choice, Quot.sound]
'LinuxLoader.C46_bz_error_kind' depends on axioms: [propext, Classical.choice, Quot.sound]
'LinuxLoader.C47_bz_kernel_in_place' depends on axioms: [propext, Classical.choice, Quot.sound]
'LinuxLoader.C47_bz_default_address' depends on axioms: [propext, Classical.choice, Quot.sound]
'LinuxLoader.C48_bz_setup_header' depends on axioms: [propext, Classical.choice, Quot.sound]
'LinuxLoader.C49_code32_below_4G' depends on axioms: [propext, Classical.choice, Quot.sound]
'LinuxLoader.C49_code32_refuted' depends on axioms: [propext, Quot.sound]
'LinuxLoader.C50_bz_highmem' depends on axioms: [propext, Classical.choice, Quot.sound]
'LinuxLoader.C50_bz_loaded_high' depends on axioms: [propext, Classical.choice, Quot.sound]
'LinuxLoader.C50_bz_below_highmem' depends on axioms: [propext, Classical.choice, Quot.sound]
'LinuxLoader.C50_bz_highmem_refuted' depends on axioms: [propext]
'LinuxLoader.C51_pe_image_in_place' depends on axioms: [propext, Classical.choice, Quot.sound]
'LinuxLoader.C52_pe_rejects' depends on axioms: [propext, Classical.choice, Quot.sound]
'LinuxLoader.C52_pe_error_kind' depends on axioms: [propext, Classical.choice, Quot.sound]
'LinuxLoader.C53_dtb_in_place' depends on axioms: [propext, Classical.choice, Quot.sound]
'LinuxLoader.C53_dtb_outcome' depends on axioms: [propext, Classical.choice, Quot.sound]
'LinuxLoader.C53_dtb_too_big' depends on axioms: [propext, Quot.sound]
'LinuxLoader.C54_bz_no_panic' depends on axioms: [propext, Classical.choice, Quot.sound]
'LinuxLoader.C54_bz_outcome_exact' depends on axioms: [propext, Classical.choice, Quot.sound]
'LinuxLoader.C54_bz_no_overflow' depends on axioms: [propext, Classical.choice, Quot.sound]
'LinuxLoader.C54_pe_no_panic' depends on axioms: [propext, Classical.choice, Quot.sound]
'LinuxLoader.C54_dtb_no_panic' depends on axioms: [propext, Classical.choice, Quot.sound]
'LinuxLoader.C54_pe_outcome_exact' depends on axioms: [propext, Classical.choice, Quot.sound]
'LinuxLoader.C54_pe_no_overflow' depends on axioms: [propext, Classical.choice, Quot.sound]
'LinuxLoader.C55_sequence' depends on axioms: [propext, Classical.choice, Quot.sound]
'LinuxLoader.C55_disjoint' depends on axioms: [propext, Classical.choice, Quot.sound]
'LinuxLoader.C55_pieces' depends on axioms: [propext, Classical.choice, Quot.sound]
'LinuxLoader.C55_order' depends on axioms: [propext, Classical.choice, Quot.sound]
'LinuxLoader.Layout.C56_boot_params' does not depend on any axioms
'LinuxLoader.Layout.C56_setup_header' does not depend on any axioms
'LinuxLoader.Layout.C56_start_info' does not depend on any axioms
'LinuxLoader.Layout.C56_elf' does not depend on any axioms
'LinuxLoader.Layout.C56_elf32' does not depend on any axioms
'LinuxLoader.Layout.C56_elf64' does not depend on any axioms
'LinuxLoader.Layout.C56_image_headers' does not depend on any axioms
'LinuxLoader.Layout.C56_zero_page_parts' does not depend on any axioms
'LinuxLoader.Layout.C56_alignment' does not depend on any axioms
'LinuxLoader.Layout.C56_elf_decoders' does not depend on any axioms
'LinuxLoader.Layout.C56_bzimage_decoders' does not depend on any axioms
'LinuxLoader.Layout.C56_pe_decoders' does not depend on any axioms
'LinuxLoader.Layout.C56_fields_disjoint' depends on axioms: [propext, Classical.choice, Quot.sound]
'LinuxLoader.C57_short_read_refuted' depends on axioms: [propext, Quot.sound]
'LinuxLoader.C57_full_read' depends on axioms: [propext, Classical.choice, Quot.sound]
'LinuxLoader.C58_refuted_value' depends on axioms: [propext, Classical.choice, Quot.sound]
'LinuxLoader.C59_boot_init_commute' depends on axioms: [propext, Classical.choice, Quot.sound]
'LinuxLoader.C59_init_boot_commute' depends on axioms: [propext, Classical.choice, Quot.sound]
'LinuxLoader.C60_capacity_monotone' depends on axioms: [propext, Classical.choice, Quot.sound]
'LinuxLoader.C61_align_up' depends on axioms: [propext, Classical.choice, Quot.sound]
'LinuxLoader.C61_align_up_overflow' depends on axioms: [propext]
'LinuxLoader.C62_elf_outcome_exact' depends on axioms: [propext, Classical.choice, Quot.sound]
'LinuxLoader.C63_zero_page' depends on axioms: [propext, Classical.choice, Quot.sound]
'LinuxLoader.C63_setup_header' depends on axioms: [propext, Classical.choice, Quot.sound]
'LinuxLoader.C63_e820' depends on axioms: [propext, Classical.choice, Quot.sound]
'LinuxLoader.C64_bzimage_to_zero_page' depends on axioms: [propext, Classical.choice, Quot.sound]
'LinuxLoader.C65_loader_display_injective' depends on axioms: [propext, Classical.choice, Quot.sound]
'LinuxLoader.C65_wrap_injective' depends on axioms: [propext]
'LinuxLoader.C65_load_message_injective' depends on axioms: [propext, Classical.choice, Quot.sound]
'LinuxLoader.C65_loader_source' depends on axioms: [propext, Classical.choice, Quot.sound]
'LinuxLoader.C65_source_alone_refuted' depends on axioms: [propext, Classical.choice, Quot.sound]
'LinuxLoader.C65_config_chain_injective' depends on axioms: [propext, Classical.choice, Quot.sound]
'LinuxLoader.C65_config_display_exact' depends on axioms: [propext, Classical.choice, Quot.sound]
'LinuxLoader.C65_cmdline_display_injective' depends on axioms: [propext, Classical.choice, Quot.sound]
'LinuxLoader.C65_pvh_display_injective' depends on axioms: [propext, Classical.choice, Quot.sound]
'LinuxLoader.C65_cmdline_messages' depends on axioms: [propext, Classical.choice, Quot.sound]
'LinuxLoader.C65_elf_messages' depends on axioms: [propext, Classical.choice, Quot.sound]
'LinuxLoader.C65_bzimage_messages' depends on axioms: [propext, Classical.choice, Quot.sound]
'LinuxLoader.C65_pe_messages' depends on axioms: [propext, Classical.choice, Quot.sound]
'LinuxLoader.C65_configurator_messages' depends on axioms: [propext, Classical.choice, Quot.sound]
'LinuxLoader.C65_kernel_messages' depends on axioms: [propext, Classical.choice, Quot.sound]
'LinuxLoader.C65_config_messages' depends on axioms: [propext, Classical.choice, Quot.sound]
'LinuxLoader.C66_loaders' depends on axioms: [propext, Classical.choice, Quot.sound]
'LinuxLoader.C66_configurators' depends on axioms: [propext, Classical.choice, Quot.sound]
'LinuxLoader.C66_sequence' depends on axioms: [propext, Classical.choice, Quot.sound]
'LinuxLoader.C67_loaders' depends on axioms: [propext, Classical.choice, Quot.sound]
'LinuxLoader.C67_configurators' depends on axioms: [propext, Classical.choice, Quot.sound]
'LinuxLoader.C67_sequence' depends on axioms: [propext, Classical.choice, Quot.sound]
'LinuxLoader.C68_loaders' depends on axioms: [propext, Classical.choice, Quot.sound]
'LinuxLoader.C68_configurators' depends on axioms: [propext, Classical.choice, Quot.sound]
'LinuxLoader.C68_sequence' depends on axioms: [propext, Classical.choice, Quot.sound]
'LinuxLoader.C69_elf' depends on axioms: [propext, Classical.choice, Quot.sound]
'LinuxLoader.C69_cmdline' depends on axioms: [propext, Classical.choice, Quot.sound]
'LinuxLoader.C69_history' depends on axioms: [propext, Classical.choice, Quot.sound]
'LinuxLoader.C69_list' depends on axioms: [propext, Quot.sound]
'LinuxLoader.C70_same_code' depends on axioms: [propext, Quot.sound]
'LinuxLoader.C70_runs' depends on axioms: [propext, Classical.choice, Quot.sound]
'LinuxLoader.C70_short_reads' depends on axioms: [propext, Classical.choice, Quot.sound]
'LinuxLoader.C70_bz_full_reads' depends on axioms: [propext, Classical.choice, Quot.sound]
'LinuxLoader.C70_success' depends on axioms: [propext, Classical.choice, Quot.sound]
'LinuxLoader.C70_terminates' depends on axioms: [propext, Quot.sound]
'LinuxLoader.C70_short_read_misplaces' depends on axioms: [propext, Quot.sound]
'LinuxLoader.C71_write_slice_try_access' depends on axioms: [propext, Classical.choice, Quot.sound]
'LinuxLoader.C71_write_slice_get_slices' depends on axioms: [propext, Classical.choice, Quot.sound]
'LinuxLoader.C71_write_slice' depends on axioms: [propext, Classical.choice, Quot.sound]
'LinuxLoader.C71_loaders' depends on axioms: [propext, Classical.choice, Quot.sound]
'LinuxLoader.C71_configurators' depends on axioms: [propext, Classical.choice, Quot.sound]
'LinuxLoader.C71_sequence' depends on axioms: [propext, Classical.choice, Quot.sound]
'LinuxLoader.C72_two' depends on axioms: [propext, Classical.choice, Quot.sound]
'LinuxLoader.C72_batch' depends on axioms: [propext, Classical.choice, Quot.sound]
'LinuxLoader.C72_insert' depends on axioms: [propext, Classical.choice, Quot.sound]
'LinuxLoader.C72_try_from' depends on axioms: [propext, Classical.choice, Quot.sound]
'LinuxLoader.C72_blank_refuted' depends on axioms: [propext, Classical.choice, Quot.sound]
'LinuxLoader.C73_linux_guest' depends on axioms: [propext, Classical.choice, Quot.sound]
'LinuxLoader.C74_pvh_guest' depends on axioms: [propext, Classical.choice, Quot.sound]
'LinuxLoader.C75_elf_work' depends on axioms: [propext, Classical.choice, Quot.sound]
'LinuxLoader.C75_other_work' depends on axioms: [propext, Quot.sound]
'LinuxLoader.C75_quadratic' depends on axioms: [propext, Classical.choice, Quot.sound]
'LinuxLoader.C75_linear_refuted' depends on axioms: [propext, Classical.choice, Quot.sound]
'LinuxLoader.C75_elf_bytes' depends on axioms: [propext, Classical.choice, Quot.sound]
'LinuxLoader.C75_other_bytes' depends on axioms: [propext, Quot.sound]
'LinuxLoader.C75_bytes_quadratic' depends on axioms: [propext, Classical.choice, Quot.sound]
'LinuxLoader.C75_bytes_linear_refuted' depends on axioms: [propext, Classical.choice, Quot.sound]
'LinuxLoader.C76_symbol_info' depends on axioms: [propext, Classical.choice, Quot.sound]
'LinuxLoader.C76_rel32_info' depends on axioms: [propext, Classical.choice, Quot.sound]
'LinuxLoader.C76_rel64_info' depends on axioms: [propext, Classical.choice, Quot.sound]
'LinuxLoader.C76_unpack' depends on axioms: [propext, Classical.choice, Quot.sound]
'LinuxLoader.C77_default_zero' depends on axioms: [propext, Quot.sound]
'LinuxLoader.C77_unset_fields' depends on axioms: [propext, Classical.choice, Quot.sound]
'LinuxLoader.C77_eq_iff_bytes' depends on axioms: [propext, Quot.sound]
'LinuxLoader.C78_elf_accepted' depends on axioms: [propext, Classical.choice, Quot.sound]
'LinuxLoader.C78_elf_result' depends on axioms: [propext, Classical.choice, Quot.sound]
'LinuxLoader.link_laidOut' depends on axioms: [propext, Quot.sound]
'LinuxLoader.C78_bz_accepted' depends on axioms: [propext, Classical.choice, Quot.sound]
'LinuxLoader.C78_bz_result' depends on axioms: [propext, Classical.choice, Quot.sound]
'LinuxLoader.C78_pe_accepted' depends on axioms: [propext, Classical.choice, Quot.sound]
'LinuxLoader.C78_pe_result' depends on axioms: [propext, Classical.choice, Quot.sound]
'LinuxLoader.C79_image_guest' depends on axioms: [propext, Classical.choice, Quot.sound]
'LinuxLoader.C79_blob_unchecked' depends on axioms: [propext, Classical.choice, Quot.sound]
'LinuxLoader.C80_image_adjacent' depends on axioms: [propext, Classical.choice, Quot.sound]
'LinuxLoader.C80_bz_adjacent' depends on axioms: [propext, Classical.choice, Quot.sound]
'LinuxLoader.C80_adjacent_refuted' depends on axioms: [propext, Quot.sound]
'LinuxLoader.C80_bz_refuted' depends on axioms: [propext]
'LinuxLoader.C81_unrecognised' depends on axioms: [propext, Classical.choice, Quot.sound]
'LinuxLoader.C81_recognised' depends on axioms: [propext, Classical.choice, Quot.sound]
'LinuxLoader.C81_probe_skips' depends on axioms: [propext, Classical.choice, Quot.sound]
'LinuxLoader.C81_probe_first' depends on axioms: [propext, Classical.choice, Quot.sound]
'LinuxLoader.C81_probe_none' depends on axioms: [propext, Classical.choice, Quot.sound]
'LinuxLoader.C81_order_matters' depends on axioms: [propext]
'LinuxLoader.C82_step' depends on axioms: [propext, Classical.choice, Quot.sound]
'LinuxLoader.C82_try_from' depends on axioms: [propext, Classical.choice, Quot.sound]
'LinuxLoader.C82_render' depends on axioms: [propext, Classical.choice, Quot.sound]
'LinuxLoader.C82_strings' depends on axioms: [propext, Classical.choice, Quot.sound]
'LinuxLoader.C82_no_panic' depends on axioms: [propext, Classical.choice, Quot.sound]
'LinuxLoader.C82_try_from_no_panic' depends on axioms: [propext, Classical.choice, Quot.sound]
'LinuxLoader.C82_render_wellFormed' depends on axioms: [propext, Classical.choice, Quot.sound]
'LinuxLoader.C83_interference' depends on axioms: [propext, Quot.sound]
'LinuxLoader.C83_concurrent' depends on axioms: [propext, Classical.choice, Quot.sound]
'LinuxLoader.C83_any_order' depends on axioms: [propext, Classical.choice, Quot.sound]
'LinuxLoader.C83_crash' depends on axioms: [propext, Classical.choice, Quot.sound]
'LinuxLoader.C83_torn' depends on axioms: [propext, Quot.sound]
'LinuxLoader.C83_same_code' depends on axioms: [propext, Quot.sound]
'LinuxLoader.C84_elf_unused' depends on axioms: [propext, Classical.choice, Quot.sound]
'LinuxLoader.C84_elf_header_unused' depends on axioms: [propext, Classical.choice, Quot.sound]
'LinuxLoader.C84_elf_header_split' depends on axioms: [propext, Classical.choice, Quot.sound]
'LinuxLoader.C84_elf_any_target' depends on axioms: [propext, Classical.choice, Quot.sound]
'LinuxLoader.C84_elf_target_refuted' depends on axioms: [propext]
'LinuxLoader.C84_elf_trailing' depends on axioms: [propext, Quot.sound]
'LinuxLoader.C84_elf_uses_tight' depends on axioms: [propext, Classical.choice, Quot.sound]
'LinuxLoader.C84_elf_note_overrun_refuted' depends on axioms: [propext, Quot.sound]
'LinuxLoader.C84_bz_unused' depends on axioms: [propext, Classical.choice, Quot.sound]
'LinuxLoader.C85_elf_frame' depends on axioms: [propext, Quot.sound]
'LinuxLoader.C85_elf_ok' depends on axioms: [propext, Classical.choice, Quot.sound]
'LinuxLoader.C85_elf_pvh' depends on axioms: [propext, Classical.choice, Quot.sound]
'LinuxLoader.C85_elf_no_panic' depends on axioms: [propext, Classical.choice, Quot.sound]
'LinuxLoader.C85_elf_panic_refuted' depends on axioms: [propext]
'LinuxLoader.C85_bz' depends on axioms: [propext, Classical.choice, Quot.sound]
'LinuxLoader.C85_pe' depends on axioms: [propext, Classical.choice, Quot.sound]
'LinuxLoader.C85_dtb' depends on axioms: [propext, Classical.choice, Quot.sound]
'LinuxLoader.C85_pe_double_fetch_refuted' depends on axioms: [propext]
'LinuxLoader.C85_requests' depends on axioms: [propext, Classical.choice, Quot.sound]
'LinuxLoader.C85_requests_grow' depends on axioms: [propext, Classical.choice, Quot.sound]
'LinuxLoader.C85_files' depends on axioms: [propext, Classical.choice, Quot.sound]
'LinuxLoader.C86_elf' depends on axioms: [propext, Classical.choice, Quot.sound]
'LinuxLoader.C86_bz' depends on axioms: [propext, Quot.sound]
'LinuxLoader.C86_pe' depends on axioms: [propext, Classical.choice, Quot.sound]
'LinuxLoader.C86_dtb' depends on axioms: [propext, Quot.sound]
'LinuxLoader.C86_cmdline' depends on axioms: [propext, Quot.sound]
'LinuxLoader.C86_linux' depends on axioms: [propext, Quot.sound]
'LinuxLoader.C86_fdt' depends on axioms: [propext, Quot.sound]
'LinuxLoader.C86_pvh' depends on axioms: [propext, Quot.sound]
'LinuxLoader.C87_memory' depends on axioms: [propext, Classical.choice, Quot.sound]
'LinuxLoader.C87_section_found' depends on axioms: [propext, Classical.choice, Quot.sound]
'LinuxLoader.C87_module_found' depends on axioms: [propext, Classical.choice, Quot.sound]
'LinuxLoader.C87_accepted' depends on axioms: [propext, Classical.choice, Quot.sound]
'LinuxLoader.C88_accepted' depends on axioms: [propext, Classical.choice, Quot.sound]
'LinuxLoader.C88_result' depends on axioms: [propext, Classical.choice, Quot.sound]
'LinuxLoader.C88_order' depends on axioms: [propext, Classical.choice, Quot.sound]
'LinuxLoader.C88_split' depends on axioms: [propext, Quot.sound]
'LinuxLoader.C88_order_refuted' depends on axioms: [propext, Quot.sound]
'LinuxLoader.C89_elf_same' depends on axioms: [propext, Quot.sound]
'LinuxLoader.C89_elf_detected' depends on axioms: [propext, Classical.choice, Quot.sound]
'LinuxLoader.C89_elf_error' depends on axioms: [propext, Classical.choice, Quot.sound]
'LinuxLoader.C89_bz_exact' depends on axioms: [propext, Classical.choice, Quot.sound]
'LinuxLoader.C89_bz_visible' depends on axioms: [propext, Classical.choice, Quot.sound]
'LinuxLoader.C89_pe_exact' depends on axioms: [propext, Classical.choice, Quot.sound]
'LinuxLoader.C89_dtb_accepted' depends on axioms: [propext, Classical.choice, Quot.sound]
'LinuxLoader.C90_elf_entry' depends on axioms: [propext, Classical.choice, Quot.sound]
'LinuxLoader.C90_elf_entry_refuted' depends on axioms: [propext]
'LinuxLoader.C90_pvh_entry_refuted' depends on axioms: [propext]
'LinuxLoader.C90_bz_entry' depends on axioms: [propext, Classical.choice, Quot.sound]
'LinuxLoader.C90_bz_entry_refuted' depends on axioms: [propext]
'LinuxLoader.C90_pe_entry' depends on axioms: [propext, Classical.choice, Quot.sound]
'LinuxLoader.C91_str' depends on axioms: [propext]
'LinuxLoader.C91_insert' depends on axioms: [propext]
'LinuxLoader.C91_multiple' depends on axioms: [propext, Classical.choice, Quot.sound]
'LinuxLoader.C91_multiple_refuted' depends on axioms: [propext, Classical.choice, Quot.sound]
'LinuxLoader.C91_step' depends on axioms: [propext, Classical.choice, Quot.sound]
'LinuxLoader.C91_history' depends on axioms: [propext, Classical.choice, Quot.sound]
'LinuxLoader.C91_safe' depends on axioms: [propext, Classical.choice, Quot.sound]
'LinuxLoader.C91_fixed' depends on axioms: [propext, Classical.choice, Quot.sound]
'LinuxLoader.C92_elf' depends on axioms: [propext, Classical.choice, Quot.sound]
'LinuxLoader.C92_images' depends on axioms: [propext, Quot.sound]
'LinuxLoader.C92_lists' depends on axioms: [propext, Classical.choice, Quot.sound]
'LinuxLoader.C92_lists_refuted' depends on axioms: [propext, Classical.choice, Quot.sound]
'LinuxLoader.C92_cmdline' depends on axioms: [propext, Classical.choice, Quot.sound]
'LinuxLoader.C93_rendered' depends on axioms: [propext, Classical.choice, Quot.sound]
'LinuxLoader.C93_devices' depends on axioms: [propext, Classical.choice, Quot.sound]
'LinuxLoader.C93_given' depends on axioms: [propext, Quot.sound]
'LinuxLoader.C93_numbered' depends on axioms: [propext, Quot.sound]
'LinuxLoader.C93_irq_refuted' depends on axioms: [propext, Classical.choice, Quot.sound]
'LinuxLoader.C93_id_refuted' depends on axioms: [propext, Classical.choice, Quot.sound]
'LinuxLoader.C94_same_view' depends on axioms: [propext, Classical.choice, Quot.sound]
'LinuxLoader.C94_insertions_rendered' depends on axioms: [propext, Classical.choice, Quot.sound]
'LinuxLoader.C94_insertions' depends on axioms: [propext, Classical.choice, Quot.sound]
'LinuxLoader.C94_unbalanced_refuted' depends on axioms: [propext, Classical.choice, Quot.sound]
'LinuxLoader.C94_unicode_refuted' depends on axioms: [propext, Classical.choice, Quot.sound]
'LinuxLoader.C94_insertions_refuted' depends on axioms: [propext, Classical.choice, Quot.sound]
'LinuxLoader.C95_capacity' depends on axioms: [propext, Classical.choice, Quot.sound]
'LinuxLoader.C96_elf64_loaded' depends on axioms: [propext, Classical.choice, Quot.sound]
'LinuxLoader.C96_big_endian_rejected' depends on axioms: [propext, Classical.choice, Quot.sound]
'LinuxLoader.C96_entry_size_rejected' depends on axioms: [propext, Classical.choice, Quot.sound]
'LinuxLoader.C96_elf32_rejected' depends on axioms: [propext, Classical.choice, Quot.sound]
'LinuxLoader.C96_elf32_refuted' depends on axioms: [propext]
'LinuxLoader.C96_extended_numbering' depends on axioms: [propext, Classical.choice, Quot.sound]
'LinuxLoader.C96_extended_numbering_refuted' depends on axioms: [propext, Classical.choice, Quot.sound]
'LinuxLoader.C97_seen' depends on axioms: [propext, Classical.choice, Quot.sound]
'LinuxLoader.C97_complete_iff' depends on axioms: [propext, Classical.choice, Quot.sound]
'LinuxLoader.C97_capacity' depends on axioms: [propext, Classical.choice, Quot.sound]
'LinuxLoader.C97_devices' depends on axioms: [propext, Classical.choice, Quot.sound]
'LinuxLoader.C97_limit_refuted' depends on axioms: [propext, Classical.choice, Quot.sound]
'LinuxLoader.C97_value_refuted' depends on axioms: [propext, Classical.choice, Quot.sound]
'LinuxLoader.C98_same_types' depends on axioms: [propext]
'LinuxLoader.C98_one_image' depends on axioms: [propext, Classical.choice, Quot.sound]
'LinuxLoader.C98_every_pattern' depends on axioms: [propext, Quot.sound]
'LinuxLoader.C98_guest' depends on axioms: [propext, Classical.choice, Quot.sound]
'LinuxLoader.C98_array' depends on axioms: [propext]
'LinuxLoader.C98_packed' depends on axioms: [propext, Quot.sound]
'LinuxLoader.C98_reprC_refuted' depends on axioms: [propext]
'LinuxLoader.C99_field' depends on axioms: [propext, Classical.choice, Quot.sound]
'LinuxLoader.C99_demands' depends on axioms: [propext, Classical.choice, Quot.sound]
'LinuxLoader.C99_default_suits' depends on axioms: [propext, Classical.choice, Quot.sound]
'LinuxLoader.C99_cmdline' depends on axioms: [propext, Classical.choice, Quot.sound]
'LinuxLoader.C99_offset_refuted' depends on axioms: [propext]
'LinuxLoader.C99_initSize_refuted' depends on axioms: [propext]
'LinuxLoader.C100_contents' depends on axioms: [propext, Classical.choice, Quot.sound]
'LinuxLoader.C100_uninitialised_kept' depends on axioms: [propext, Classical.choice, Quot.sound]
'LinuxLoader.C100_in_place_iff' depends on axioms: [propext, Classical.choice, Quot.sound]
'LinuxLoader.C100_fresh' depends on axioms: [propext, Classical.choice, Quot.sound]
'LinuxLoader.C100_in_place_refuted' depends on axioms: [propext, Quot.sound]
'LinuxLoader.C100_mapped_refuted' depends on axioms: [propext, Quot.sound]
'LinuxLoader.C101_flags' depends on axioms: [propext, Classical.choice, Quot.sound]
'LinuxLoader.C101_independent' depends on axioms: [propext, Classical.choice, Quot.sound]
'LinuxLoader.C101_kinds' does not depend on any axioms
'LinuxLoader.C101_setup_types' depends on axioms: [propext, Quot.sound]
'LinuxLoader.C101_ranges' depends on axioms: [propext, Quot.sound]
'LinuxLoader.C101_zero_page_bounds' depends on axioms: [propext, Classical.choice, Quot.sound]
'LinuxLoader.C101_symbols' depends on axioms: [propext, Classical.choice, Quot.sound]
'LinuxLoader.C101_elf' depends on axioms: [propext, Classical.choice, Quot.sound]
'LinuxLoader.C101_loaded_high' depends on axioms: [propext, Classical.choice, Quot.sound]
'LinuxLoader.C101_notes' does not depend on any axioms
'LinuxLoader.C101_values' depends on axioms: [propext, Classical.choice, Quot.sound]
'LinuxLoader.C101_note_owners' depends on axioms: [propext, Classical.choice, Quot.sound]
'LinuxLoader.C101_exclude_refuted' depends on axioms: [propext, Quot.sound]
'LinuxLoader.C101_widths' does not depend on any axioms
'LinuxLoader.C102_initrd' depends on axioms: [propext, Classical.choice, Quot.sound]
'LinuxLoader.C102_setup_data' depends on axioms: [propext, Classical.choice, Quot.sound]
'LinuxLoader.C102_modules' depends on axioms: [propext, Classical.choice, Quot.sound]
'LinuxLoader.C102_devices' depends on axioms: [propext, Classical.choice, Quot.sound]
'LinuxLoader.C102_overlap_refuted' depends on axioms: [propext, Classical.choice, Quot.sound]
'LinuxLoader.C103_same_effect' depends on axioms: [propext, Classical.choice, Quot.sound]
'LinuxLoader.C103_accepts' depends on axioms: [propext, Classical.choice, Quot.sound]
'LinuxLoader.C103_cmdline' depends on axioms: [propext, Classical.choice, Quot.sound]
'LinuxLoader.C103_same_refuted' depends on axioms: [propext, Classical.choice, Quot.sound]
'LinuxLoader.C104_filter' depends on axioms: [propext, Quot.sound]
'LinuxLoader.C104_no_bound' depends on axioms: [propext, Quot.sound]
'LinuxLoader.C104_exact' depends on axioms: [propext, Classical.choice, Quot.sound]
'LinuxLoader.C104_default_offset' depends on axioms: [propext, Classical.choice, Quot.sound]
'LinuxLoader.C104_offset_zero_refuted' depends on axioms: [propext]
'LinuxLoader.C104_result' depends on axioms: [propext, Classical.choice, Quot.sound]
'LinuxLoader.C105_zero_page' depends on axioms: [propext, Classical.choice, Quot.sound]
'LinuxLoader.C105_arrays' depends on axioms: [propext, Classical.choice, Quot.sound]
'LinuxLoader.C105_assign' depends on axioms: [propext, Classical.choice, Quot.sound]
'LinuxLoader.C105_distinguishable' depends on axioms: [propext, Classical.choice, Quot.sound]
'LinuxLoader.C105_returned_header' depends on axioms: [propext, Classical.choice, Quot.sound]
'LinuxLoader.C106_read' depends on axioms: [propext, Classical.choice, Quot.sound]
'LinuxLoader.C106_write' depends on axioms: [propext, Classical.choice, Quot.sound]
'LinuxLoader.C106_change' depends on axioms: [propext, Classical.choice, Quot.sound]
'LinuxLoader.C106_pe' depends on axioms: [propext, Classical.choice, Quot.sound]
'LinuxLoader.C106_elf' depends on axioms: [propext, Classical.choice, Quot.sound]
'LinuxLoader.C107_call' depends on axioms: [propext, Classical.choice, Quot.sound]
'LinuxLoader.C107_cut' depends on axioms: [propext, Classical.choice, Quot.sound]
'LinuxLoader.C107_sequence' depends on axioms: [propext, Classical.choice, Quot.sound]
'LinuxLoader.C107_elf' depends on axioms: [propext, Classical.choice, Quot.sound]
'LinuxLoader.C107_images' depends on axioms: [propext, Classical.choice, Quot.sound]
'LinuxLoader.C107_writes' depends on axioms: [propext, Classical.choice, Quot.sound]
'LinuxLoader.C107_pvh' depends on axioms: [propext, Classical.choice, Quot.sound]
'LinuxLoader.C108_retry' depends on axioms: [propext, Classical.choice, Quot.sound]
'LinuxLoader.C108_resume' depends on axioms: [propext, Classical.choice, Quot.sound]
'LinuxLoader.C108_short_header' depends on axioms: [propext, Quot.sound]
'LinuxLoader.C109_elf' depends on axioms: [propext, Classical.choice, Quot.sound]
'LinuxLoader.C109_pvh' depends on axioms: [propext, Classical.choice, Quot.sound]
'LinuxLoader.C109_determined' depends on axioms: [propext, Classical.choice, Quot.sound]
'LinuxLoader.C109_bz' depends on axioms: [propext, Quot.sound]
'LinuxLoader.C109_pe' depends on axioms: [propext, Quot.sound]
'LinuxLoader.C109_dtb' depends on axioms: [propext, Quot.sound]
'LinuxLoader.C110_closed' depends on axioms: [propext, Quot.sound]
'LinuxLoader.C110_offers' depends on axioms: [propext, Quot.sound]
'LinuxLoader.C110_exhaustive' depends on axioms: [propext]
'LinuxLoader.C110_additive' depends on axioms: [propext, Quot.sound]
'LinuxLoader.C110_pe_header' depends on axioms: [propext, Quot.sound]
'LinuxLoader.C110_additive_for_matches_refuted' depends on axioms: [propext]
'LinuxLoader.C110_without_cargo_refuted' depends on axioms: [propext]
'LinuxLoader.C111_cmdline' depends on axioms: [propext, Classical.choice, Quot.sound]
'LinuxLoader.C111_built' depends on axioms: [propext, Classical.choice, Quot.sound]
'LinuxLoader.C111_one_line' depends on axioms: [propext, Classical.choice, Quot.sound]
'LinuxLoader.C111_errors' depends on axioms: [propext, Classical.choice, Quot.sound]
'LinuxLoader.C111_structures' depends on axioms: [propext, Classical.choice, Quot.sound]
'LinuxLoader.C111_fields' depends on axioms: [propext, Classical.choice, Quot.sound]
'LinuxLoader.C111_result' depends on axioms: [propext, Classical.choice, Quot.sound]
'LinuxLoader.C111_elf' depends on axioms: [propext, Classical.choice, Quot.sound]
'LinuxLoader.C112_fields' depends on axioms: [propext, Quot.sound]
'LinuxLoader.C112_pe' depends on axioms: [propext, Quot.sound]
'LinuxLoader.C112_needed' depends on axioms: [propext, Classical.choice, Quot.sound]
'LinuxLoader.C113_elf' depends on axioms: [propext, Quot.sound]
'LinuxLoader.C113_bz' depends on axioms: [propext, Quot.sound]
'LinuxLoader.C113_pe' depends on axioms: [propext, Quot.sound]
'LinuxLoader.C113_dtb' depends on axioms: [propext, Quot.sound]
'LinuxLoader.C113_frame' depends on axioms: [propext, Quot.sound]
'LinuxLoader.C113_memory' depends on axioms: [propext, Quot.sound]
'LinuxLoader.C113_exact' depends on axioms: [propext, Classical.choice, Quot.sound]
'LinuxLoader.C113_memory_exact' depends on axioms: [propext, Classical.choice, Quot.sound]
'LinuxLoader.C114_elf' depends on axioms: [propext, Classical.choice, Quot.sound]
'LinuxLoader.C114_bz' depends on axioms: [propext, Classical.choice, Quot.sound]
'LinuxLoader.C114_pe' depends on axioms: [propext, Classical.choice, Quot.sound]
'LinuxLoader.C114_dtb' depends on axioms: [propext, Classical.choice, Quot.sound]
'LinuxLoader.C114_cmdline' depends on axioms: [propext, Classical.choice, Quot.sound]
'LinuxLoader.C114_linux' depends on axioms: [propext, Classical.choice, Quot.sound]
'LinuxLoader.C114_fdt' depends on axioms: [propext, Classical.choice, Quot.sound]
'LinuxLoader.C114_pvh' depends on axioms: [propext, Classical.choice, Quot.sound]
'LinuxLoader.C115_call' depends on axioms: [propext, Classical.choice, Quot.sound]
'LinuxLoader.C115_history' depends on axioms: [propext, Classical.choice, Quot.sound]
'LinuxLoader.C115_ends' depends on axioms: [propext, Classical.choice, Quot.sound]
'LinuxLoader.C115_params' depends on axioms: [propext, Classical.choice, Quot.sound]
'LinuxLoader.C115_params_history' depends on axioms: [propext, Classical.choice, Quot.sound]
'LinuxLoader.C116_step' depends on axioms: [propext, Classical.choice, Quot.sound]
'LinuxLoader.C116_sequence' depends on axioms: [propext, Classical.choice, Quot.sound]
'LinuxLoader.C116_run' depends on axioms: [propext]
