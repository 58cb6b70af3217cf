{
 "claims": [
  {
   "property": "C01",
   "status": "proved",
   "theorems": [
    "LinuxLoader.C01_capacity",
    "LinuxLoader.C01_text_fits"
   ],
   "note": ""
  },
  {
   "property": "C02",
   "status": "proved",
   "theorems": [
    "LinuxLoader.C02_rejected_unchanged",
    "LinuxLoader.C02_history"
   ],
   "note": ""
  },
  {
   "property": "C03",
   "status": "proved",
   "theorems": [
    "LinuxLoader.C03_no_panic",
    "LinuxLoader.C03_no_panic_render"
   ],
   "note": "allocation failure is outside the model"
  },
  {
   "property": "C04",
   "status": "proved",
   "theorems": [
    "LinuxLoader.C04_insert_str",
    "LinuxLoader.C04_trimmed_total"
   ],
   "note": ""
  },
  {
   "property": "C05",
   "status": "proved",
   "theorems": [
    "LinuxLoader.C05_insert_init_args",
    "LinuxLoader.C05_condition_is_fit",
    "LinuxLoader.C05_blank_is_charged"
   ],
   "note": ""
  },
  {
   "property": "C06",
   "status": "proved",
   "theorems": [
    "LinuxLoader.C06_ordered_join",
    "LinuxLoader.C06_fold",
    "LinuxLoader.C06_trace_exists",
    "LinuxLoader.C06_joinSp"
   ],
   "note": ""
  },
  {
   "property": "C07",
   "status": "proved",
   "theorems": [
    "LinuxLoader.C07_printable"
   ],
   "note": ""
  },
  {
   "property": "C08",
   "status": "proved",
   "theorems": [
    "LinuxLoader.C08_printable",
    "LinuxLoader.C08_nonprintable_kept",
    "LinuxLoader.C08_refuted",
    "LinuxLoader.C08_refuted_nul"
   ],
   "note": "the expected stronger property (try_from validates characters) is refuted by witnesses"
  },
  {
   "property": "C09",
   "status": "proved",
   "theorems": [
    "LinuxLoader.C09_as_cstring",
    "LinuxLoader.C09_vec",
    "LinuxLoader.C09_bytes_are_utf8"
   ],
   "note": ""
  },
  {
   "property": "C10",
   "status": "proved",
   "theorems": [
    "LinuxLoader.C10_insert",
    "LinuxLoader.C10_total"
   ],
   "note": ""
  },
  {
   "property": "C11",
   "status": "proved",
   "theorems": [
    "LinuxLoader.C11_insert_multiple",
    "LinuxLoader.C11_total",
    "LinuxLoader.C11_single"
   ],
   "note": ""
  },
  {
   "property": "C12",
   "status": "proved",
   "theorems": [
    "LinuxLoader.C12_rendered",
    "LinuxLoader.C12_rendered_composes",
    "LinuxLoader.C12_kernel_composes",
    "LinuxLoader.C12_pair_exact",
    "LinuxLoader.C12_pair_alone",
    "LinuxLoader.C12_kernel_sees_pairs",
    "LinuxLoader.C12_unbalanced_breaks",
    "LinuxLoader.C12_refuted_key",
    "LinuxLoader.C12_refuted_value",
    "LinuxLoader.C12_refuted_empty_key"
   ],
   "note": "the condition is proved to be sufficient and, per argument, necessary"
  },
  {
   "property": "C13",
   "status": "proved",
   "theorems": [
    "LinuxLoader.C13_virtio",
    "LinuxLoader.C13_text",
    "LinuxLoader.C13_injective"
   ],
   "note": ""
  },
  {
   "property": "C14",
   "status": "proved",
   "theorems": [
    "LinuxLoader.C14_split",
    "LinuxLoader.C14_split_unique"
   ],
   "note": ""
  },
  {
   "property": "C15",
   "status": "proved",
   "theorems": [
    "LinuxLoader.C15_accepts_iff_fits"
   ],
   "note": ""
  },
  {
   "property": "C16",
   "status": "proved",
   "theorems": [
    "LinuxLoader.C16_reparse",
    "LinuxLoader.C16_refuted_for_tabs"
   ],
   "note": ""
  },
  {
   "property": "C17",
   "status": "proved",
   "theorems": [
    "LinuxLoader.C17_equality"
   ],
   "note": ""
  },
  {
   "property": "C18",
   "status": "proved",
   "theorems": [
    "LinuxLoader.C18_congruence",
    "LinuxLoader.C18_parsed_congruence",
    "LinuxLoader.C18_init_congruence",
    "LinuxLoader.C18_refuted"
   ],
   "note": ""
  },
  {
   "property": "C19",
   "status": "proved",
   "theorems": [
    "LinuxLoader.C19_exact",
    "LinuxLoader.C19_text"
   ],
   "note": "Any memory layout, address and command line; the frame covers every address."
  },
  {
   "property": "C20",
   "status": "proved",
   "theorems": [
    "LinuxLoader.C20_decision",
    "LinuxLoader.C20_no_memory"
   ],
   "note": "Exact condition of each of the four outcomes; no panic. Memory well-formed as vm-memory builds it."
  },
  {
   "property": "C21",
   "status": "proved",
   "theorems": [
    "LinuxLoader.C21_failure_frame",
    "LinuxLoader.C21_frame"
   ],
   "note": ""
  },
  {
   "property": "C22",
   "status": "proved",
   "theorems": [
    "LinuxLoader.C22_sparse_image"
   ],
   "note": "Every history of calls on both lists, including failed ones, from BootParams::new; element sizes below isize::MAX as for every Rust type."
  },
  {
   "property": "C23",
   "status": "proved",
   "theorems": [
    "LinuxLoader.C23_append",
    "LinuxLoader.C23_at_address",
    "LinuxLoader.C23_modules",
    "LinuxLoader.C23_append_all"
   ],
   "note": ""
  },
  {
   "property": "C24",
   "status": "proved",
   "theorems": [
    "LinuxLoader.C24_outcome",
    "LinuxLoader.C24_exclusive",
    "LinuxLoader.C24_failure_unchanged",
    "LinuxLoader.C24_eager_overflow"
   ],
   "note": "Includes the eager overflow check with an explicit address."
  },
  {
   "property": "C25",
   "status": "proved",
   "theorems": [
    "LinuxLoader.C25_refuted",
    "LinuxLoader.C25_refuted_pvh",
    "LinuxLoader.C25_existing_list"
   ],
   "note": "The expected property is refuted by a theorem; what holds once the list exists is proved."
  },
  {
   "property": "C26",
   "status": "proved",
   "theorems": [
    "LinuxLoader.C26_refuted",
    "LinuxLoader.C26_no_panic",
    "LinuxLoader.C26_no_panic_modules"
   ],
   "note": "Refuted in general; proved under the stated condition."
  },
  {
   "property": "C27",
   "status": "proved",
   "theorems": [
    "LinuxLoader.C27_independent",
    "LinuxLoader.C27_commute"
   ],
   "note": ""
  },
  {
   "property": "C28",
   "status": "proved",
   "theorems": [
    "LinuxLoader.C28_success",
    "LinuxLoader.C28_header_only",
    "LinuxLoader.C28_failure"
   ],
   "note": ""
  },
  {
   "property": "C29",
   "status": "proved",
   "theorems": [
    "LinuxLoader.C29_refuted",
    "LinuxLoader.C29_exact"
   ],
   "note": "Expected condition refuted; exact condition proved."
  },
  {
   "property": "C30",
   "status": "proved",
   "theorems": [
    "LinuxLoader.C30_fdt"
   ],
   "note": ""
  },
  {
   "property": "C31",
   "status": "proved",
   "theorems": [
    "LinuxLoader.C31_success",
    "LinuxLoader.C31_disjoint"
   ],
   "note": ""
  },
  {
   "property": "C32",
   "status": "proved",
   "theorems": [
    "LinuxLoader.C32_first_obstacle",
    "LinuxLoader.C32_frame"
   ],
   "note": ""
  },
  {
   "property": "C33",
   "status": "proved",
   "theorems": [
    "LinuxLoader.C33_refuted",
    "LinuxLoader.C33_early_failure"
   ],
   "note": "Refuted; proved for the failures detected before the first write."
  },
  {
   "property": "C34",
   "status": "proved",
   "theorems": [
    "LinuxLoader.C34_pvh_round_trip"
   ],
   "note": ""
  },
  {
   "property": "C35",
   "status": "proved",
   "theorems": [
    "LinuxLoader.C35_elf_segments_in_place",
    "LinuxLoader.C35_elf_segments_complete",
    "LinuxLoader.C35_elf_rest_unchanged",
    "LinuxLoader.C35_elf_disjoint_segments"
   ],
   "note": ""
  },
  {
   "property": "C36",
   "status": "proved",
   "theorems": [
    "LinuxLoader.C36_elf_accepts_only_valid",
    "LinuxLoader.C36_elf_header_errors"
   ],
   "note": ""
  },
  {
   "property": "C37",
   "status": "proved",
   "theorems": [
    "LinuxLoader.C37_elf_result_fields"
   ],
   "note": ""
  },
  {
   "property": "C38",
   "status": "proved",
   "theorems": [
    "LinuxLoader.C38_kernel_end_exact",
    "LinuxLoader.C38_kernel_end_bounds",
    "LinuxLoader.C38_kernel_end_refuted",
    "LinuxLoader.C38_bss_end_refuted"
   ],
   "note": ""
  },
  {
   "property": "C39",
   "status": "proved",
   "theorems": [
    "LinuxLoader.C39_elf_highmem",
    "LinuxLoader.C39_elf_highmem_error"
   ],
   "note": ""
  },
  {
   "property": "C40",
   "status": "proved",
   "theorems": [
    "LinuxLoader.C40_elf_never_panics"
   ],
   "note": "Images below 2^63 bytes. Termination of the note loop is the statement that the model's fuel never runs out."
  },
  {
   "property": "C41",
   "status": "proved",
   "theorems": [
    "LinuxLoader.C41_pvh_note_parser",
    "LinuxLoader.C41_pvh_capability_of_notes",
    "LinuxLoader.C41_short_descriptor_rejected"
   ],
   "note": ""
  },
  {
   "property": "C42",
   "status": "proved",
   "theorems": [
    "LinuxLoader.C42_pvh_ignored_with_offset",
    "LinuxLoader.C42_pvh_of_last_note",
    "LinuxLoader.C42_any_note_refuted"
   ],
   "note": "'Present if any note segment has it' is refuted; what holds instead is proved."
  },
  {
   "property": "C43",
   "status": "proved",
   "theorems": [
    "LinuxLoader.C43_offset_is_a_shift"
   ],
   "note": ""
  },
  {
   "property": "C44",
   "status": "proved",
   "theorems": [
    "LinuxLoader.C44_elf_frame",
    "LinuxLoader.C44_elf_bytes",
    "LinuxLoader.C44_elf_scatter_refuted",
    "LinuxLoader.C44_bz_bytes",
    "LinuxLoader.C44_bz_frame",
    "LinuxLoader.C44_bz_short_read_refuted",
    "LinuxLoader.C44_pe_bytes",
    "LinuxLoader.C44_pe_frame",
    "LinuxLoader.C44_dtb_frame",
    "LinuxLoader.C44_dtb_bytes"
   ],
   "note": "For every fault schedule. bzImage: for readers without short reads or with kernel_offset given; refuted for a short header read without kernel_offset (C57)."
  },
  {
   "property": "C45",
   "status": "proved",
   "theorems": [
    "LinuxLoader.C45_elf_position_irrelevant",
    "LinuxLoader.C45_bz_position_irrelevant",
    "LinuxLoader.C45_pe_position_irrelevant",
    "LinuxLoader.C45_dtb_position_irrelevant"
   ],
   "note": "For every reader and fault schedule."
  },
  {
   "property": "C46",
   "status": "proved",
   "theorems": [
    "LinuxLoader.C46_bz_accepts",
    "LinuxLoader.C46_bz_rejects",
    "LinuxLoader.C46_bz_error_kind"
   ],
   "note": "Acceptance and rejection for every reader behaviour, the kind of error for faultless readers."
  },
  {
   "property": "C47",
   "status": "proved",
   "theorems": [
    "LinuxLoader.C47_bz_kernel_in_place",
    "LinuxLoader.C47_bz_default_address"
   ],
   "note": "Placement for every reader; the default address for readers without short reads (see C57)."
  },
  {
   "property": "C48",
   "status": "proved",
   "theorems": [
    "LinuxLoader.C48_bz_setup_header"
   ],
   "note": "For readers without short reads (see C57)."
  },
  {
   "property": "C49",
   "status": "proved",
   "theorems": [
    "LinuxLoader.C49_code32_below_4G",
    "LinuxLoader.C49_code32_refuted"
   ],
   "note": "The expected property is refuted for kernel_offset >= 4 GiB; proved below."
  },
  {
   "property": "C50",
   "status": "proved",
   "theorems": [
    "LinuxLoader.C50_bz_highmem",
    "LinuxLoader.C50_bz_loaded_high",
    "LinuxLoader.C50_bz_below_highmem",
    "LinuxLoader.C50_bz_highmem_refuted"
   ],
   "note": "Loaded at or above highmem proved without kernel_offset, refuted with it."
  },
  {
   "property": "C51",
   "status": "proved",
   "theorems": [
    "LinuxLoader.C51_pe_image_in_place"
   ],
   "note": "Both architectures."
  },
  {
   "property": "C52",
   "status": "proved",
   "theorems": [
    "LinuxLoader.C52_pe_rejects",
    "LinuxLoader.C52_pe_error_kind"
   ],
   "note": "Rejection without side effects for every reader; the kind of error for faultless readers."
  },
  {
   "property": "C53",
   "status": "proved",
   "theorems": [
    "LinuxLoader.C53_dtb_in_place",
    "LinuxLoader.C53_dtb_outcome",
    "LinuxLoader.C53_dtb_too_big"
   ],
   "note": ""
  },
  {
   "property": "C54",
   "status": "proved",
   "theorems": [
    "LinuxLoader.C54_bz_no_panic",
    "LinuxLoader.C54_bz_outcome_exact",
    "LinuxLoader.C54_bz_no_overflow",
    "LinuxLoader.C54_pe_no_panic",
    "LinuxLoader.C54_dtb_no_panic",
    "LinuxLoader.C54_pe_outcome_exact",
    "LinuxLoader.C54_pe_no_overflow",
    "LinuxLoader.C53_dtb_outcome"
   ],
   "note": ""
  },
  {
   "property": "C55",
   "status": "proved",
   "theorems": [
    "LinuxLoader.C55_sequence",
    "LinuxLoader.C55_disjoint",
    "LinuxLoader.C55_pieces",
    "LinuxLoader.C55_order"
   ],
   "note": "any sequence of calls, every crash point; bzImage without kernel_offset needs a header read in one piece (C57)"
  },
  {
   "property": "C56",
   "status": "proved",
   "theorems": [
    "LinuxLoader.Layout.C56_boot_params",
    "LinuxLoader.Layout.C56_setup_header",
    "LinuxLoader.Layout.C56_start_info",
    "LinuxLoader.Layout.C56_elf",
    "LinuxLoader.Layout.C56_elf32",
    "LinuxLoader.Layout.C56_elf64",
    "LinuxLoader.Layout.C56_image_headers",
    "LinuxLoader.Layout.C56_zero_page_parts",
    "LinuxLoader.Layout.C56_alignment",
    "LinuxLoader.Layout.C56_elf_decoders",
    "LinuxLoader.Layout.C56_bzimage_decoders",
    "LinuxLoader.Layout.C56_pe_decoders",
    "LinuxLoader.Layout.C56_fields_disjoint"
   ],
   "note": "Closed facts by kernel computation over the transcribed structure definitions, plus a general theorem on the layout rules."
  },
  {
   "property": "C57",
   "status": "proved",
   "theorems": [
    "LinuxLoader.C57_short_read_refuted",
    "LinuxLoader.C57_full_read"
   ],
   "note": "The expected property is refuted by a short read; proved for readers that deliver the header in one piece."
  },
  {
   "property": "C58",
   "status": "proved",
   "theorems": [
    "LinuxLoader.C12_rendered",
    "LinuxLoader.C12_rendered_composes",
    "LinuxLoader.C12_kernel_composes",
    "LinuxLoader.C12_kernel_sees_pairs",
    "LinuxLoader.C58_refuted_value"
   ],
   "note": "second component of the same theorem as C12"
  },
  {
   "property": "C59",
   "status": "proved",
   "theorems": [
    "LinuxLoader.C59_boot_init_commute",
    "LinuxLoader.C59_init_boot_commute"
   ],
   "note": ""
  },
  {
   "property": "C60",
   "status": "proved",
   "theorems": [
    "LinuxLoader.C60_capacity_monotone"
   ],
   "note": ""
  },
  {
   "property": "C61",
   "status": "proved",
   "theorems": [
    "LinuxLoader.C61_align_up",
    "LinuxLoader.C61_align_up_overflow"
   ],
   "note": ""
  },
  {
   "property": "C62",
   "status": "proved",
   "theorems": [
    "LinuxLoader.C62_elf_outcome_exact"
   ],
   "note": ""
  },
  {
   "property": "C63",
   "status": "proved",
   "theorems": [
    "LinuxLoader.C63_zero_page",
    "LinuxLoader.C63_setup_header",
    "LinuxLoader.C63_e820"
   ],
   "note": ""
  },
  {
   "property": "C64",
   "status": "proved",
   "theorems": [
    "LinuxLoader.C64_bzimage_to_zero_page"
   ],
   "note": ""
  },
  {
   "property": "C65",
   "status": "proved",
   "theorems": [
    "LinuxLoader.C65_loader_display_injective",
    "LinuxLoader.C65_wrap_injective",
    "LinuxLoader.C65_load_message_injective",
    "LinuxLoader.C65_loader_source",
    "LinuxLoader.C65_source_alone_refuted",
    "LinuxLoader.C65_config_chain_injective",
    "LinuxLoader.C65_config_display_exact",
    "LinuxLoader.C65_cmdline_display_injective",
    "LinuxLoader.C65_pvh_display_injective",
    "LinuxLoader.C65_cmdline_messages",
    "LinuxLoader.C65_elf_messages",
    "LinuxLoader.C65_bzimage_messages",
    "LinuxLoader.C65_pe_messages",
    "LinuxLoader.C65_configurator_messages",
    "LinuxLoader.C65_kernel_messages",
    "LinuxLoader.C65_config_messages"
   ],
   "note": ""
  },
  {
   "property": "C66",
   "status": "proved",
   "theorems": [
    "LinuxLoader.C66_loaders",
    "LinuxLoader.C66_configurators",
    "LinuxLoader.C66_sequence"
   ],
   "note": ""
  },
  {
   "property": "C67",
   "status": "proved",
   "theorems": [
    "LinuxLoader.C67_loaders",
    "LinuxLoader.C67_configurators",
    "LinuxLoader.C67_sequence"
   ],
   "note": ""
  },
  {
   "property": "C68",
   "status": "proved",
   "theorems": [
    "LinuxLoader.C68_loaders",
    "LinuxLoader.C68_configurators",
    "LinuxLoader.C68_sequence"
   ],
   "note": ""
  },
  {
   "property": "C69",
   "status": "proved",
   "theorems": [
    "LinuxLoader.C69_elf",
    "LinuxLoader.C69_cmdline",
    "LinuxLoader.C69_history",
    "LinuxLoader.C69_list"
   ],
   "note": "the list left behind by a panic of the boot parameter builder is not modelled"
  },
  {
   "property": "C70",
   "status": "proved",
   "theorems": [
    "LinuxLoader.C70_same_code",
    "LinuxLoader.C70_runs",
    "LinuxLoader.C70_short_reads",
    "LinuxLoader.C70_bz_full_reads",
    "LinuxLoader.C70_success",
    "LinuxLoader.C70_terminates",
    "LinuxLoader.C70_short_read_misplaces"
   ],
   "note": "the loops of std and vm-memory are modelled from their documentation and source as known, they are not part of /repo"
  },
  {
   "property": "C71",
   "status": "proved",
   "theorems": [
    "LinuxLoader.C71_write_slice_try_access",
    "LinuxLoader.C71_write_slice_get_slices",
    "LinuxLoader.C71_write_slice",
    "LinuxLoader.C71_loaders",
    "LinuxLoader.C71_configurators",
    "LinuxLoader.C71_sequence"
   ],
   "note": ""
  },
  {
   "property": "C72",
   "status": "proved",
   "theorems": [
    "LinuxLoader.C72_two",
    "LinuxLoader.C72_batch",
    "LinuxLoader.C72_insert",
    "LinuxLoader.C72_try_from",
    "LinuxLoader.C72_blank_refuted"
   ],
   "note": ""
  },
  {
   "property": "C73",
   "status": "proved",
   "theorems": [
    "LinuxLoader.C73_linux_guest"
   ],
   "note": ""
  },
  {
   "property": "C74",
   "status": "proved",
   "theorems": [
    "LinuxLoader.C74_pvh_guest"
   ],
   "note": ""
  },
  {
   "property": "C75",
   "status": "proved",
   "theorems": [
    "LinuxLoader.C75_elf_work",
    "LinuxLoader.C75_other_work",
    "LinuxLoader.C75_quadratic",
    "LinuxLoader.C75_linear_refuted",
    "LinuxLoader.C75_elf_bytes",
    "LinuxLoader.C75_other_bytes",
    "LinuxLoader.C75_bytes_quadratic",
    "LinuxLoader.C75_bytes_linear_refuted"
   ],
   "note": "proportional to the size of the image is refuted, for operations and for bytes stored; the bounds on bytes stored are for readers whose failing transfers do not spread bytes over several regions (NoScatter), where the reader model does not count them"
  },
  {
   "property": "C76",
   "status": "proved",
   "theorems": [
    "LinuxLoader.C76_symbol_info",
    "LinuxLoader.C76_rel32_info",
    "LinuxLoader.C76_rel64_info",
    "LinuxLoader.C76_unpack"
   ],
   "note": ""
  },
  {
   "property": "C77",
   "status": "proved",
   "theorems": [
    "LinuxLoader.C77_default_zero",
    "LinuxLoader.C77_unset_fields",
    "LinuxLoader.C77_eq_iff_bytes"
   ],
   "note": ""
  },
  {
   "property": "C78",
   "status": "proved",
   "theorems": [
    "LinuxLoader.C78_elf_accepted",
    "LinuxLoader.C78_elf_result",
    "LinuxLoader.link_laidOut",
    "LinuxLoader.C78_bz_accepted",
    "LinuxLoader.C78_bz_result",
    "LinuxLoader.C78_pe_accepted",
    "LinuxLoader.C78_pe_result"
   ],
   "note": ""
  },
  {
   "property": "C79",
   "status": "proved",
   "theorems": [
    "LinuxLoader.C79_image_guest",
    "LinuxLoader.C79_blob_unchecked"
   ],
   "note": "checks of alignment and size of the blob are refuted"
  },
  {
   "property": "C80",
   "status": "proved",
   "theorems": [
    "LinuxLoader.C80_image_adjacent",
    "LinuxLoader.C80_bz_adjacent",
    "LinuxLoader.C80_adjacent_refuted",
    "LinuxLoader.C80_bz_refuted"
   ],
   "note": "exact conditions; the general expectation is refuted"
  },
  {
   "property": "C81",
   "status": "proved",
   "theorems": [
    "LinuxLoader.C81_unrecognised",
    "LinuxLoader.C81_recognised",
    "LinuxLoader.C81_probe_skips",
    "LinuxLoader.C81_probe_first",
    "LinuxLoader.C81_probe_none",
    "LinuxLoader.C81_order_matters"
   ],
   "note": ""
  },
  {
   "property": "C82",
   "status": "proved",
   "theorems": [
    "LinuxLoader.C82_step",
    "LinuxLoader.C82_try_from",
    "LinuxLoader.C82_render",
    "LinuxLoader.C82_strings",
    "LinuxLoader.C82_no_panic",
    "LinuxLoader.C82_try_from_no_panic",
    "LinuxLoader.C82_render_wellFormed"
   ],
   "note": ""
  },
  {
   "property": "C83",
   "status": "proved",
   "theorems": [
    "LinuxLoader.C83_interference",
    "LinuxLoader.C83_concurrent",
    "LinuxLoader.C83_any_order",
    "LinuxLoader.C83_crash",
    "LinuxLoader.C83_torn",
    "LinuxLoader.C83_same_code"
   ],
   "note": ""
  },
  {
   "property": "C84",
   "status": "proved",
   "theorems": [
    "LinuxLoader.C84_elf_unused",
    "LinuxLoader.C84_elf_header_unused",
    "LinuxLoader.C84_elf_header_split",
    "LinuxLoader.C84_elf_any_target",
    "LinuxLoader.C84_elf_target_refuted",
    "LinuxLoader.C84_elf_trailing",
    "LinuxLoader.C84_elf_uses_tight",
    "LinuxLoader.C84_elf_note_overrun_refuted",
    "LinuxLoader.C84_bz_unused"
   ],
   "note": "expectations refuted with exact description of what holds"
  },
  {
   "property": "C85",
   "status": "proved",
   "theorems": [
    "LinuxLoader.C85_elf_frame",
    "LinuxLoader.C85_elf_ok",
    "LinuxLoader.C85_elf_pvh",
    "LinuxLoader.C85_elf_no_panic",
    "LinuxLoader.C85_elf_panic_refuted",
    "LinuxLoader.C85_bz",
    "LinuxLoader.C85_pe",
    "LinuxLoader.C85_dtb",
    "LinuxLoader.C85_pe_double_fetch_refuted",
    "LinuxLoader.C85_requests",
    "LinuxLoader.C85_requests_grow",
    "LinuxLoader.C85_files"
   ],
   "note": "expectations refuted with exact description of what holds"
  },
  {
   "property": "C86",
   "status": "proved",
   "theorems": [
    "LinuxLoader.C86_elf",
    "LinuxLoader.C86_bz",
    "LinuxLoader.C86_pe",
    "LinuxLoader.C86_dtb",
    "LinuxLoader.C86_cmdline",
    "LinuxLoader.C86_linux",
    "LinuxLoader.C86_fdt",
    "LinuxLoader.C86_pvh"
   ],
   "note": ""
  },
  {
   "property": "C87",
   "status": "proved",
   "theorems": [
    "LinuxLoader.C87_memory",
    "LinuxLoader.C87_section_found",
    "LinuxLoader.C87_module_found",
    "LinuxLoader.C87_accepted"
   ],
   "note": ""
  },
  {
   "property": "C88",
   "status": "proved",
   "theorems": [
    "LinuxLoader.C88_accepted",
    "LinuxLoader.C88_result",
    "LinuxLoader.C88_order",
    "LinuxLoader.C88_split",
    "LinuxLoader.C88_order_refuted"
   ],
   "note": "order of overlapping segments and of note segments does matter (refuted part)"
  },
  {
   "property": "C89",
   "status": "proved",
   "theorems": [
    "LinuxLoader.C89_elf_same",
    "LinuxLoader.C89_elf_detected",
    "LinuxLoader.C89_elf_error",
    "LinuxLoader.C89_bz_exact",
    "LinuxLoader.C89_bz_visible",
    "LinuxLoader.C89_pe_exact",
    "LinuxLoader.C89_dtb_accepted"
   ],
   "note": "bzImage, PE and device tree: detection refuted, exact set of accepted truncations"
  },
  {
   "property": "C90",
   "status": "proved",
   "theorems": [
    "LinuxLoader.C90_elf_entry",
    "LinuxLoader.C90_elf_entry_refuted",
    "LinuxLoader.C90_pvh_entry_refuted",
    "LinuxLoader.C90_bz_entry",
    "LinuxLoader.C90_bz_entry_refuted",
    "LinuxLoader.C90_pe_entry"
   ],
   "note": "ELF and bzImage entry points are not checked: refuted with witnesses, exact condition proved"
  },
  {
   "property": "C91",
   "status": "proved",
   "theorems": [
    "LinuxLoader.C91_str",
    "LinuxLoader.C91_insert",
    "LinuxLoader.C91_multiple",
    "LinuxLoader.C91_multiple_refuted",
    "LinuxLoader.C91_step",
    "LinuxLoader.C91_history",
    "LinuxLoader.C91_safe",
    "LinuxLoader.C91_fixed"
   ],
   "note": "insert_multiple fetches each value twice: refuted part with witness"
  },
  {
   "property": "C92",
   "status": "proved",
   "theorems": [
    "LinuxLoader.C92_elf",
    "LinuxLoader.C92_images",
    "LinuxLoader.C92_lists",
    "LinuxLoader.C92_lists_refuted",
    "LinuxLoader.C92_cmdline"
   ],
   "note": "boot parameter lists: bound by what was added refuted, exact length proved"
  },
  {
   "property": "C93",
   "status": "proved",
   "theorems": [
    "LinuxLoader.C93_rendered",
    "LinuxLoader.C93_devices",
    "LinuxLoader.C93_given",
    "LinuxLoader.C93_numbered",
    "LinuxLoader.C93_irq_refuted",
    "LinuxLoader.C93_id_refuted"
   ],
   "note": "interrupt 0, large and clashing ids: refuted parts with witnesses"
  },
  {
   "property": "C94",
   "status": "proved",
   "theorems": [
    "LinuxLoader.C94_same_view",
    "LinuxLoader.C94_insertions_rendered",
    "LinuxLoader.C94_insertions",
    "LinuxLoader.C94_unbalanced_refuted",
    "LinuxLoader.C94_unicode_refuted",
    "LinuxLoader.C94_insertions_refuted"
   ],
   "note": "unbalanced quotes, Unicode white space, '--' between tabs: refuted with witnesses"
  },
  {
   "property": "C95",
   "status": "proved",
   "theorems": [
    "LinuxLoader.C95_capacity"
   ],
   "note": ""
  },
  {
   "property": "C96",
   "status": "proved",
   "theorems": [
    "LinuxLoader.C96_elf64_loaded",
    "LinuxLoader.C96_big_endian_rejected",
    "LinuxLoader.C96_entry_size_rejected",
    "LinuxLoader.C96_elf32_rejected",
    "LinuxLoader.C96_elf32_refuted",
    "LinuxLoader.C96_extended_numbering",
    "LinuxLoader.C96_extended_numbering_refuted"
   ],
   "note": "Spec/ElfKinds.lean reads program headers as the gABI defines them for both classes and byte orders. Two refuted expectations with exact cases."
  },
  {
   "property": "C97",
   "status": "proved",
   "theorems": [
    "LinuxLoader.C97_seen",
    "LinuxLoader.C97_complete_iff",
    "LinuxLoader.C97_capacity",
    "LinuxLoader.C97_devices",
    "LinuxLoader.C97_limit_refuted",
    "LinuxLoader.C97_value_refuted"
   ],
   "note": "The kernel's reading of its command line is the specification cstr (Spec/Guest.lean); its parser is Spec/Kernel.lean, its driver Spec/VirtioDriver.lean."
  },
  {
   "property": "C98",
   "status": "proved",
   "theorems": [
    "LinuxLoader.C98_same_types",
    "LinuxLoader.C98_one_image",
    "LinuxLoader.C98_every_pattern",
    "LinuxLoader.C98_guest",
    "LinuxLoader.C98_array",
    "LinuxLoader.C98_packed",
    "LinuxLoader.C98_reprC_refuted"
   ],
   "note": "Model/Types.lean keeps the field types; its layouts are those of Model/Layout.lean (C98_same_types), whose offsets are checked against the documentation in C56 and C63."
  },
  {
   "property": "C99",
   "status": "proved",
   "theorems": [
    "LinuxLoader.C99_field",
    "LinuxLoader.C99_demands",
    "LinuxLoader.C99_default_suits",
    "LinuxLoader.C99_cmdline",
    "LinuxLoader.C99_offset_refuted",
    "LinuxLoader.C99_initSize_refuted"
   ],
   "note": "Spec/SetupHeader.lean gives the demands by the documented absolute offsets; the two checks that the loader does not make are refuted."
  },
  {
   "property": "C100",
   "status": "proved",
   "theorems": [
    "LinuxLoader.C100_contents",
    "LinuxLoader.C100_uninitialised_kept",
    "LinuxLoader.C100_in_place_iff",
    "LinuxLoader.C100_fresh",
    "LinuxLoader.C100_in_place_refuted",
    "LinuxLoader.C100_mapped_refuted"
   ],
   "note": "Spec/MemImage.lean is the definition of a segment's memory in the ELF specification."
  },
  {
   "property": "C101",
   "status": "proved",
   "theorems": [
    "LinuxLoader.C101_flags",
    "LinuxLoader.C101_independent",
    "LinuxLoader.C101_kinds",
    "LinuxLoader.C101_setup_types",
    "LinuxLoader.C101_ranges",
    "LinuxLoader.C101_zero_page_bounds",
    "LinuxLoader.C101_symbols",
    "LinuxLoader.C101_elf",
    "LinuxLoader.C101_loaded_high",
    "LinuxLoader.C101_notes",
    "LinuxLoader.C101_values",
    "LinuxLoader.C101_note_owners",
    "LinuxLoader.C101_exclude_refuted",
    "LinuxLoader.C101_widths"
   ],
   "note": "The constants are a table generated from the source (Model/Constants.lean); the documented values are Spec/Constants.lean. The finite comparisons cover their whole domain; flags and indices are proved for all values."
  },
  {
   "property": "C102",
   "status": "proved",
   "theorems": [
    "LinuxLoader.C102_initrd",
    "LinuxLoader.C102_setup_data",
    "LinuxLoader.C102_modules",
    "LinuxLoader.C102_devices",
    "LinuxLoader.C102_overlap_refuted"
   ],
   "note": "Spec/Payload.lean: how the guest follows the pointers. BootStep.own is a write of the VMM itself, so that C55, C66-C68, C71, C73, C74, C79 and C83 also cover it."
  },
  {
   "property": "C103",
   "status": "proved",
   "theorems": [
    "LinuxLoader.C103_same_effect",
    "LinuxLoader.C103_accepts",
    "LinuxLoader.C103_cmdline",
    "LinuxLoader.C103_same_refuted"
   ],
   "note": "two implementations against each other; C30, C53, C19/C20 are the single specifications"
  },
  {
   "property": "C104",
   "status": "proved",
   "theorems": [
    "LinuxLoader.C104_filter",
    "LinuxLoader.C104_no_bound",
    "LinuxLoader.C104_exact",
    "LinuxLoader.C104_default_offset",
    "LinuxLoader.C104_offset_zero_refuted",
    "LinuxLoader.C104_result"
   ],
   "note": "The filter is proved for any reader; exact and default_offset for readers without faults."
  },
  {
   "property": "C105",
   "status": "proved",
   "theorems": [
    "LinuxLoader.C105_zero_page",
    "LinuxLoader.C105_arrays",
    "LinuxLoader.C105_assign",
    "LinuxLoader.C105_distinguishable",
    "LinuxLoader.C105_returned_header"
   ],
   "note": "Values of the nested types (Model/Values.lean) with access by path; documented table in Spec/ZeroPageDeep.lean. Found necessary by the seeded edits A29 and A30 (fields swapped inside a nested structure), which no earlier theorem noticed."
  },
  {
   "property": "C106",
   "status": "proved",
   "theorems": [
    "LinuxLoader.C106_read",
    "LinuxLoader.C106_write",
    "LinuxLoader.C106_change",
    "LinuxLoader.C106_pe",
    "LinuxLoader.C106_elf"
   ],
   "note": "Typed values of Model/Values.lean; documented places in Spec/HeaderDoc.lean. The public headers of CHANGELOG #205 are the use case."
  },
  {
   "property": "C107",
   "status": "proved",
   "theorems": [
    "LinuxLoader.C107_call",
    "LinuxLoader.C107_cut",
    "LinuxLoader.C107_sequence",
    "LinuxLoader.C107_elf",
    "LinuxLoader.C107_images",
    "LinuxLoader.C107_writes",
    "LinuxLoader.C107_pvh"
   ],
   "note": "Spec: Spec/Beginning.lean (beginning, LeftBehind, StoppedAt, stoppedPiece). Proof: an inductive relation for storing pieces up to some point, closed under sequencing, for each loader and configurator; C107_elf follows the loop over the program headers up to the first obstacle."
  },
  {
   "property": "C108",
   "status": "proved",
   "theorems": [
    "LinuxLoader.C108_retry",
    "LinuxLoader.C108_resume",
    "LinuxLoader.C108_short_header"
   ],
   "note": "Spec: Spec/Retry.lean (SameCall, afterAttempts, persist). Unlike C67 the readers' faults differ between attempts. C108_short_header shows that the condition on bzImage readers is needed."
  },
  {
   "property": "C109",
   "status": "proved",
   "theorems": [
    "LinuxLoader.C109_elf",
    "LinuxLoader.C109_pvh",
    "LinuxLoader.C109_determined",
    "LinuxLoader.C109_bz",
    "LinuxLoader.C109_pe",
    "LinuxLoader.C109_dtb"
   ],
   "note": "Position after success; after a failed call the position is unspecified (std leaves it open for read_exact). Readers behave as files or cursors."
  },
  {
   "property": "C110",
   "status": "proved",
   "theorems": [
    "LinuxLoader.C110_closed",
    "LinuxLoader.C110_offers",
    "LinuxLoader.C110_exhaustive",
    "LinuxLoader.C110_additive",
    "LinuxLoader.C110_pe_header",
    "LinuxLoader.C110_additive_for_matches_refuted",
    "LinuxLoader.C110_without_cargo_refuted"
   ],
   "note": "Conditional compilation as a table of items with their conditions, surrounding modules and references, each with its line in /repo (Model/Cfg.lean). References inside vm-memory and std, test code and documentation are left out."
  },
  {
   "property": "C111",
   "status": "proved",
   "theorems": [
    "LinuxLoader.C111_cmdline",
    "LinuxLoader.C111_built",
    "LinuxLoader.C111_one_line",
    "LinuxLoader.C111_errors",
    "LinuxLoader.C111_structures",
    "LinuxLoader.C111_fields",
    "LinuxLoader.C111_result",
    "LinuxLoader.C111_elf"
   ],
   "note": "Model: Model/Debug.lean, Model/ElfTypes.lean (derived Debug; str and integer Debug of std; {:?} only, not {:#?}); the Unicode tables of std are a parameter. Spec: Spec/Log.lean."
  },
  {
   "property": "C112",
   "status": "proved",
   "theorems": [
    "LinuxLoader.C112_fields",
    "LinuxLoader.C112_pe",
    "LinuxLoader.C112_needed"
   ],
   "note": "Model: Model/ByteOrder.lean (fields in the byte order of the host, from_le as swap_bytes). The other functions on these targets (load_dtb, load_cmdline, Cmdline, the FDT configurator) handle bytes and addresses only. The exported headers have no accessors: a VMM must convert itself."
  },
  {
   "property": "C113",
   "status": "proved",
   "theorems": [
    "LinuxLoader.C113_elf",
    "LinuxLoader.C113_bz",
    "LinuxLoader.C113_pe",
    "LinuxLoader.C113_dtb",
    "LinuxLoader.C113_frame",
    "LinuxLoader.C113_memory",
    "LinuxLoader.C113_exact",
    "LinuxLoader.C113_memory_exact"
   ],
   "note": "Model: Model/Panicking.lean, the loaders, load_cmdline and configurators over operations that may panic. That unwinding runs no code of the crate with an effect (no Drop implementation, no catch_unwind in /repo/src) was checked by reading and is part of the model: a panic ends the call. Examples C113_example, C113_memory_example (every request), C113_half_transfer (a transfer broken off in the middle)."
  },
  {
   "property": "C114",
   "status": "proved",
   "theorems": [
    "LinuxLoader.C114_elf",
    "LinuxLoader.C114_bz",
    "LinuxLoader.C114_pe",
    "LinuxLoader.C114_dtb",
    "LinuxLoader.C114_cmdline",
    "LinuxLoader.C114_linux",
    "LinuxLoader.C114_fdt",
    "LinuxLoader.C114_pvh"
   ],
   "note": "Specifications in Spec/Complete.lean, made of those of C20, C28-C32, C35-C37, C42, C46-C54, C62 and C107. The builder and add_section/add_module are specified completely by C04, C05, C10, C11, C13-C15 and C22-C24. Examples: right results, and wrong ones refuted (kernel_end of the first segment only, PVH entry lost, memory untouched or written too far, code32_start not updated, arm64 default offset ignored). load_cmdline into a memory without any mapped address is C20_no_memory."
  },
  {
   "property": "C115",
   "status": "proved",
   "theorems": [
    "LinuxLoader.C115_call",
    "LinuxLoader.C115_history",
    "LinuxLoader.C115_ends",
    "LinuxLoader.C115_params",
    "LinuxLoader.C115_params_history"
   ],
   "note": "Specifications in Spec/CompleteBuild.lean. try_from for strings below isize::MAX bytes, elements of boot parameters likewise (both hold of every Rust value). The list of an add_module or add_section that fails is Some(empty) if there was none before (C24); list and start are stated apart. Examples: right results, and wrong ones refuted (success without a change, change without success, wrong error, lost init arguments or capacity, hole not filled, list cut off, wrong list, moved start)."
  },
  {
   "property": "C116",
   "status": "proved",
   "theorems": [
    "LinuxLoader.C116_step",
    "LinuxLoader.C116_sequence",
    "LinuxLoader.C116_run"
   ],
   "note": "SequenceDone in Spec/CompleteBoot.lean, made of the specifications of C114 and one of write_slice. C116_run connects the results with bootRun of C55, which only says whether a call succeeds. Example: the boot of Props/Boot.lean (ELF kernel, command line, PVH parameters, device tree that does not fit); going on after the failure or stopping before it is refuted."
  }
 ]
}