{"id": "C01", "title": "Command line never exceeds its capacity", "statement": "Start from Cmdline::new(cap) or Cmdline::try_from(s, cap) and apply any sequence of insert, insert_multiple, insert_str, insert_init_args and add_virtio_mmio_device calls, successful or not: whenever as_cstring() returns Ok, its length including the NUL terminator is at most cap.", "quantifier": "every capacity, every initial string, every finite sequence of builder calls with arbitrary Unicode arguments", "why_tests_cant": "the bound is an invariant of unbounded call histories; tests only try a handful of lengths around one boundary", "anchors": ["src/cmdline/mod.rs::Cmdline::new", "src/cmdline/mod.rs::Cmdline::insert_str", "src/cmdline/mod.rs::Cmdline::insert_init_args", "src/cmdline/mod.rs::Cmdline::get_null_terminated_representation_size", "src/cmdline/mod.rs::Cmdline::try_from"]}
{"id": "C02", "title": "A rejected builder call changes nothing", "statement": "If insert, insert_multiple, insert_str, insert_init_args or add_virtio_mmio_device returns an error, the command line is exactly what it was before the call: every later observation and every later call gives the same result as if the failed call had not been made.", "quantifier": "every command line value, every builder call, every argument", "why_tests_cant": "needs all error paths of all calls in all states, and all later observations", "anchors": ["src/cmdline/mod.rs::Cmdline::insert_str", "src/cmdline/mod.rs::Cmdline::insert_init_args", "src/cmdline/mod.rs::Cmdline::insert", "src/cmdline/mod.rs::Cmdline::insert_multiple", "src/cmdline/mod.rs::Cmdline::add_virtio_mmio_device"]}
{"id": "C03", "title": "Builder calls never overflow or panic", "statement": "On any command line obtained from new or try_from by any call history, no builder call and no as_cstring call performs an overflowing usize addition (a panic in debug builds, a wrong size in release builds).", "quantifier": "every reachable command line and every builder call with arbitrary arguments, capacities up to usize::MAX", "why_tests_cant": "the unchecked size additions are only safe because of an invariant over all histories, including capacities no test can allocate", "anchors": ["src/cmdline/mod.rs::Cmdline::get_null_terminated_representation_size", "src/cmdline/mod.rs::Cmdline::insert_str", "src/cmdline/mod.rs::Cmdline::insert_init_args"]}
{"id": "C04", "title": "insert_str accepts exactly the printable strings that fit", "statement": "insert_str(slug) returns InvalidAscii iff slug without surrounding whitespace has a character outside ' '..'~'; otherwise it returns TooLarge iff the boot arguments extended by the trimmed slug (with one separating space if there already are boot arguments), plus ' -- ' and the init arguments if any, plus NUL would exceed the capacity; otherwise it returns Ok and extends the boot arguments by exactly that text.", "quantifier": "every reachable command line and every string", "why_tests_cant": "exact acceptance boundary over all lengths and characters", "anchors": ["src/cmdline/mod.rs::Cmdline::insert_str", "src/cmdline/mod.rs::valid_str", "src/cmdline/mod.rs::valid_char"]}
{"id": "C05", "title": "insert_init_args acceptance and effect", "statement": "insert_init_args(slug) returns InvalidAscii iff the trimmed slug is not printable ASCII; otherwise TooLarge iff the current rendering plus the separator (' -- ' for the first init argument, one space afterwards) plus the trimmed slug plus NUL exceeds the capacity; otherwise Ok, and the init arguments are extended by exactly the trimmed slug (after a space if there already were some); the boot arguments are untouched.", "quantifier": "every reachable command line and every string", "why_tests_cant": "exact acceptance boundary over all lengths and characters", "anchors": ["src/cmdline/mod.rs::Cmdline::insert_init_args"]}
{"id": "C06", "title": "The rendered line is the ordered join of accepted arguments", "statement": "For any interleaving of successful insert_str / insert_init_args calls with non-blank arguments on a fresh command line with at least one boot argument, as_cstring() is the trimmed boot arguments in call order joined by single spaces, followed, if there is any init argument, by ' -- ' and the trimmed init arguments in call order joined by single spaces.", "quantifier": "every interleaving of accepted calls of any length", "why_tests_cant": "unbounded number of orders and interleavings", "anchors": ["src/cmdline/mod.rs::Cmdline::insert_str", "src/cmdline/mod.rs::Cmdline::insert_init_args", "src/cmdline/mod.rs::Cmdline::as_cstring"]}
{"id": "C07", "title": "Built command lines are printable ASCII with one final NUL", "statement": "For any command line obtained from Cmdline::new by any history of builder calls, as_cstring() never returns NullTerminator, and when it is Ok its bytes with NUL consist of bytes in 0x20..0x7e followed by exactly one 0 byte.", "quantifier": "every history of builder calls starting from new", "why_tests_cant": "invariant over unbounded histories and all Unicode inputs", "anchors": ["src/cmdline/mod.rs::valid_char", "src/cmdline/mod.rs::valid_str", "src/cmdline/mod.rs::Cmdline::as_cstring"]}
{"id": "C08", "title": "Parsed command lines keep their characters", "statement": "A command line parsed by Cmdline::try_from from printable ASCII, and anything built on it, contains only printable ASCII and can be rendered unless it has init arguments only. try_from does not filter: every character of the input other than white space is kept, so (against expectation) accepted lines can contain control characters, non-ASCII and NUL.", "quantifier": "every string and capacity", "why_tests_cant": "an existence question over all strings: tests only feed printable strings", "anchors": ["src/cmdline/mod.rs::Cmdline::try_from", "src/cmdline/mod.rs::Cmdline::as_cstring"]}
{"id": "C09", "title": "as_cstring outcome is determined by boot and init arguments", "statement": "as_cstring() is NoBootArgsInserted iff there are init arguments but no boot arguments; otherwise NullTerminator iff the rendering contains a NUL character; otherwise Ok of exactly the UTF-8 rendering. Conversion into Vec<u8> gives the same error or the same bytes followed by a single 0 byte.", "quantifier": "every command line value, including ones parsed from arbitrary Unicode", "why_tests_cant": "total case analysis over all contents", "anchors": ["src/cmdline/mod.rs::Cmdline::as_cstring", "src/cmdline/mod.rs::TryFrom<Cmdline> for Vec<u8>"]}
{"id": "C10", "title": "insert accepts exactly legal key/value pairs and appends them verbatim", "statement": "insert(k, v) fails with, in this order of precedence: InvalidAscii if k is not printable, HasSpace if k has a space, HasEquals if k has '=', InvalidAscii if v is not printable, InvalidQuote if v has a double quote strictly inside, NoQuoteSpace if v has a space and is not enclosed in double quotes; otherwise it fails only with TooLarge (exactly when the resulting line does not fit) and on success appends exactly 'k=v' (no character trimmed) as the last boot argument.", "quantifier": "every reachable command line and every pair of strings", "why_tests_cant": "six overlapping rejection conditions over all strings; whether trimming can eat part of a value is a universal question", "anchors": ["src/cmdline/mod.rs::Cmdline::insert", "src/cmdline/mod.rs::valid_key", "src/cmdline/mod.rs::valid_value", "src/cmdline/mod.rs::is_quoted", "src/cmdline/mod.rs::contains_double_quotes"]}
{"id": "C11", "title": "insert_multiple is insert with a comma separated value list", "statement": "insert_multiple(k, vs) rejects an illegal key first, then an empty list with MissingVal(k), then reports the error of the first illegal value; otherwise fails only with TooLarge (exactly when the line does not fit) and on success appends exactly 'k=v1,...,vn'. With one value it behaves exactly like insert.", "quantifier": "every reachable command line, key and list of values of any length", "why_tests_cant": "lists of unbounded length and error precedence among elements", "anchors": ["src/cmdline/mod.rs::Cmdline::insert_multiple"]}
{"id": "C12", "title": "The kernel sees exactly the inserted arguments", "statement": "For any history of calls on a fresh command line whose accepted boot arguments are balanced in double quotes (and contain no '--' of their own), the kernel's parse_args applied to the rendered line sees exactly what it sees in each accepted argument alone, in order. For insert(k, v) accepted by the builder this is parameter k with value v without enclosing quotes if and only if k is non-empty and does not start with a quote, v has no unmatched opening quote and the quotes of k=v come in pairs; analogously for insert_multiple and virtio devices. Behind an argument with unbalanced quotes, which the builder accepts, the kernel never sees the following arguments as they are.", "quantifier": "every sequence of accepted key/value insertions of any length", "why_tests_cant": "needs every value shape and every neighbouring argument", "anchors": ["src/cmdline/mod.rs::Cmdline::insert", "src/cmdline/mod.rs::valid_key", "src/cmdline/mod.rs::valid_value"]}
{"id": "C13", "title": "virtio MMIO device arguments decode to what was requested", "statement": "For every non-zero size, base address, irq and optional id, a successful add_virtio_mmio_device appends 'virtio_mmio.device=' followed by a string that the kernel's '<size>[KMG]@0x<base>:<irq>[:<id>]' grammar parses back to exactly (size, base, irq, id); size 0 is rejected with MmioSize, and otherwise the only failure is TooLarge.", "quantifier": "all 2^64 sizes and bases, all 2^32 irqs and ids, every reachable command line", "why_tests_cant": "the domain has about 2^192 points and the suffix choice depends on divisibility", "anchors": ["src/cmdline/mod.rs::Cmdline::add_virtio_mmio_device", "src/cmdline/mod.rs::Cmdline::guestusize_to_str"]}
{"id": "C14", "title": "try_from splits at the first unquoted separator", "statement": "Cmdline::try_from(s, cap), when Ok, has as boot arguments the trimmed part of s before the first position where ' -- ' occurs with an even number of double quotes before it, and as init arguments the trimmed rest after that occurrence; with no such position, boot arguments are s trimmed and there are no init arguments.", "quantifier": "every Unicode string and capacity", "why_tests_cant": "quantifies over all quote parities and all (overlapping) occurrences of the separator", "anchors": ["src/cmdline/mod.rs::Cmdline::try_from", "src/cmdline/mod.rs::Cmdline::check_outside_double_quotes"]}
{"id": "C15", "title": "try_from accepts exactly what fits", "statement": "try_from(s, cap) fails with InvalidCapacity iff cap is 0 or the rendering of the split and trimmed arguments plus NUL is longer than cap; there is no other error for strings that fit in memory.", "quantifier": "every string (of length at most isize::MAX bytes) and every capacity", "why_tests_cant": "exact boundary over all lengths, multi-byte characters included", "anchors": ["src/cmdline/mod.rs::Cmdline::try_from"]}
{"id": "C16", "title": "Parsing a rendered command line gives it back", "statement": "If s is printable ASCII and try_from(s, cap) = Ok(c) with c renderable, then try_from(rendering of c, cap) is Ok and has the same boot and init arguments as c. (For other whitespace, e.g. a tab before the separator, this is false.)", "quantifier": "every printable string and capacity", "why_tests_cant": "round trip over all strings with quotes, dashes and runs of spaces", "anchors": ["src/cmdline/mod.rs::Cmdline::try_from", "src/cmdline/mod.rs::Cmdline::as_cstring"]}
{"id": "C17", "title": "Cmdline equality is an equivalence that ignores capacity", "statement": "== on Cmdline is reflexive, symmetric and transitive, is exactly equality of the as_cstring() results, and does not depend on the capacities.", "quantifier": "every pair or triple of command lines", "why_tests_cant": "algebraic law over all values", "anchors": ["src/cmdline/mod.rs::PartialEq for Cmdline"]}
{"id": "C18", "title": "Equal command lines stay equal under the same insertion (expected, refuted; exact cases)", "statement": "If the boot and init arguments of two command lines agree, the same accepted insertion gives equal command lines; this is the case for any two equal, renderable command lines parsed from printable strings. (For == alone it is false: equality ignores where the init arguments start.)", "quantifier": "every pair of equal command lines and every insertion", "why_tests_cant": "congruence over all pairs of values; the refuting pairs are never built by tests", "anchors": ["src/cmdline/mod.rs::PartialEq for Cmdline", "src/cmdline/mod.rs::Cmdline::insert_str"]}
{"id": "C19", "title": "load_cmdline writes exactly the NUL terminated command line", "statement": "If load_cmdline(mem, addr, c) is Ok, guest memory at addr holds the rendering of c followed by a 0 byte, and every other byte of guest memory is unchanged.", "quantifier": "every guest memory layout, address and command line", "why_tests_cant": "all layouts, addresses and contents; frame condition over the whole memory", "anchors": ["src/loader/mod.rs::load_cmdline"]}
{"id": "C20", "title": "load_cmdline succeeds iff the line can be rendered and its range is mapped", "statement": "load_cmdline is Ok iff as_cstring() is Ok and every address from addr to addr + length (NUL included) is mapped guest memory; a wrap past 2^64 or past the last mapped address gives CommandLineOverflow, an unrenderable line InvalidCommandLine, and a hole in the range CommandLineCopy.", "quantifier": "every guest memory layout, address and command line", "why_tests_cant": "boundary over all layouts including holes and addresses near 2^64", "anchors": ["src/loader/mod.rs::load_cmdline"]}
{"id": "C21", "title": "A failing load_cmdline never writes outside its range", "statement": "If load_cmdline fails with InvalidCommandLine or CommandLineOverflow guest memory is unchanged; if it fails with CommandLineCopy only bytes of the mapped prefix of the target range may have changed, and these hold the corresponding command line bytes.", "quantifier": "every guest memory layout, address and command line", "why_tests_cant": "frame condition on all failure paths", "anchors": ["src/loader/mod.rs::load_cmdline"]}
{"id": "C22", "title": "Boot parameter lists behave as a sparse memory image", "statement": "After any sequence of successful add_section (or add_module) calls on an empty list, byte k of the stored buffer is the byte given by the latest added element covering address start+k, or 0 if none does, and the buffer's length is the largest end of an element relative to start, where start is the address of the first element.", "quantifier": "every sequence of additions, with or without explicit addresses, overlapping or not, of elements of any sizes", "why_tests_cant": "unbounded sequences of overlapping writes", "anchors": ["src/configurator/mod.rs::BootParams::add_section", "src/configurator/mod.rs::BootParams::add_module", "src/configurator/mod.rs::BootParams::add_boot_parameter_to_list"]}
{"id": "C23", "title": "Appending returns the address where the element ends up", "statement": "add_section / add_module without an address on a list starting at s returns s + (current length in bytes) and appends exactly the element's bytes; with an address a it returns a and stores the bytes at offset a - s, leaving all other bytes unchanged and zero-filling a gap. Appending n elements to set_sections(xs, s) leaves exactly the concatenation of all elements' bytes.", "quantifier": "every list state, element size, address and number of appended elements", "why_tests_cant": "unbounded sequences and all element sizes", "anchors": ["src/configurator/mod.rs::BootParams::add_boot_parameter_to_list", "src/configurator/mod.rs::BootParams::set_sections", "src/configurator/mod.rs::BootParams::set_modules"]}
{"id": "C24", "title": "Errors of add_section and add_module", "statement": "add_section / add_module returns MissingStartAddress iff neither the list nor the call has an address, Overflow iff list start + current length exceeds 2^64-1, InvalidAddress iff the given address precedes the list start (and there is no Overflow); a failed call changes neither the bytes nor the start address of the list, and a missing list counts as empty.", "quantifier": "every list state, address and element", "why_tests_cant": "exact error boundary over all addresses", "anchors": ["src/configurator/mod.rs::BootParams::add_boot_parameter_to_list"]}
{"id": "C25", "title": "A failed add_module has no observable effect (expected, refuted)", "statement": "If add_section or add_module fails, the boot parameters are as before. (False: a failed first add_module without an address leaves an empty module list behind, which makes a later PVH write_bootparams fail with ModulesAddressMissing; it holds once the list exists.)", "quantifier": "every boot parameter state, element and address", "why_tests_cant": "needs a later observation through another API", "anchors": ["src/configurator/mod.rs::BootParams::add_module", "src/configurator/x86_64/pvh.rs::PvhBootConfigurator::write_bootparams"]}
{"id": "C26", "title": "add_section and add_module never panic (expected, refuted)", "statement": "No call panics. (False for addresses far above the list start: offset + size overflows; proved for every call whose element ends within isize::MAX bytes of the list start.)", "quantifier": "every list state, address and element size", "why_tests_cant": "the failing inputs need addresses near 2^64", "anchors": ["src/configurator/mod.rs::BootParams::add_boot_parameter_to_list"]}
{"id": "C27", "title": "Sections, modules and header are independent", "statement": "set_sections/add_section never change the modules or the header, set_modules/add_module never change the sections or the header, and a section operation and a module operation commute.", "quantifier": "every boot parameter state and every pair of operations", "why_tests_cant": "all states and operation pairs", "anchors": ["src/configurator/mod.rs::BootParams"]}
{"id": "C28", "title": "Linux boot parameters are written exactly", "statement": "If LinuxBootConfigurator::write_bootparams is Ok, guest memory holds the header bytes at the header address and is otherwise unchanged; the sections and modules have no influence. On ZeroPagePastRamEnd memory is unchanged; on ZeroPageSetup only bytes of the target range may have changed.", "quantifier": "every guest memory layout and boot parameters", "why_tests_cant": "frame condition over all layouts and contents", "anchors": ["src/configurator/x86_64/linux.rs::LinuxBootConfigurator::write_bootparams"]}
{"id": "C29", "title": "Linux boot parameters are accepted iff they fit (expected, refuted)", "statement": "write_bootparams succeeds iff every byte of the header range is mapped. (False: a header ending exactly at the end of a memory region is rejected; the exact condition is that the range is mapped and the byte after it is mapped too.)", "quantifier": "every guest memory layout, header and address", "why_tests_cant": "exact boundary over all layouts", "anchors": ["src/configurator/x86_64/linux.rs::LinuxBootConfigurator::write_bootparams", "src/configurator/fdt.rs::FdtBootConfigurator::write_bootparams"]}
{"id": "C30", "title": "Device trees are written exactly by the FDT configurator", "statement": "FdtBootConfigurator::write_bootparams is Ok iff the header range and the byte after it are mapped; when Ok, guest memory holds the header bytes at the header address and is otherwise unchanged; on FDTPastRamEnd memory is unchanged.", "quantifier": "every guest memory layout and boot parameters", "why_tests_cant": "frame condition and exact boundary over all layouts", "anchors": ["src/configurator/fdt.rs::FdtBootConfigurator::write_bootparams"]}
{"id": "C31", "title": "PVH boot parameters are all in place after success", "statement": "If PvhBootConfigurator::write_bootparams is Ok, the memory map, the start info and the modules (if any) are in guest memory at their addresses, a later one winning where ranges overlap (memory map, then start info, then modules); all other bytes are unchanged. In particular with disjoint ranges all three can be read back.", "quantifier": "every guest memory layout and boot parameters, overlapping ranges included", "why_tests_cant": "three writes over all layouts and overlaps", "anchors": ["src/configurator/x86_64/pvh.rs::PvhBootConfigurator::write_bootparams"]}
{"id": "C32", "title": "PVH errors identify the first obstacle", "statement": "write_bootparams fails with MemmapTableMissing iff there is no section list, then MemmapTableAddressMissing, MemmapTablePastRamEnd, MemmapTableSetup, StartInfoPastRamEnd, StartInfoSetup, ModulesAddressMissing, ModulesSetup in this order of precedence, each exactly under its condition; without a memory map guest memory is unchanged, and any failure only changes bytes in the ranges of the memory map, start info and modules.", "quantifier": "every guest memory layout and boot parameters", "why_tests_cant": "nine-way outcome over all layouts", "anchors": ["src/configurator/x86_64/pvh.rs::PvhBootConfigurator::write_bootparams"]}
{"id": "C33", "title": "A failed PVH configuration leaves memory unchanged (expected, refuted)", "statement": "If write_bootparams fails, guest memory is unchanged. (False: the memory map is written before the start info is checked. Proved for the failures detected before the first write.)", "quantifier": "every guest memory layout and boot parameters", "why_tests_cant": "needs memory inspection after each failure", "anchors": ["src/configurator/x86_64/pvh.rs::PvhBootConfigurator::write_bootparams"]}
{"id": "C34", "title": "Typed boot structures read back unchanged", "statement": "For every hvm_start_info value written through BootParams::new and PvhBootConfigurator, and every list of hvm_memmap_table_entry / hvm_modlist_entry values set with set_sections / set_modules, decoding the guest memory at the given address with the documented little-endian layout gives back the values (for disjoint ranges), entry i being at start + i * entry size.", "quantifier": "all field values, any number of entries, every memory layout", "why_tests_cant": "all field values and list lengths", "anchors": ["src/loader_gen/x86_64/start_info.rs", "src/configurator/mod.rs::BootParams::new", "src/configurator/mod.rs::BootParams::set_sections", "src/configurator/x86_64/pvh.rs"]}
{"id": "C35", "title": "Elf::load puts every loadable segment in place and touches nothing else", "statement": "If Elf::load is Ok, guest memory is the old memory overwritten, in program header order, by the file bytes [p_offset, p_offset+p_filesz) of each PT_LOAD header with p_filesz != 0, at p_paddr plus kernel_offset if given; all other bytes (bss included) are unchanged.", "quantifier": "every image, guest memory layout, kernel_offset, high memory address and I/O fault schedule", "why_tests_cant": "any number of segments, overlaps and layouts", "anchors": ["src/loader/elf/mod.rs::Elf::load"]}
{"id": "C36", "title": "Elf::load accepts only valid headers", "statement": "If Elf::load is Ok, the image starts with a 64-byte header with the ELF magic, little-endian data, e_phentsize 56, e_phoff >= 64, and e_phnum complete program headers in the file; a violated condition gives the documented error (magic before endianness before header size before offset before entry address) and guest memory is unchanged.", "quantifier": "every byte string as image", "why_tests_cant": "all images; precedence of all errors", "anchors": ["src/loader/elf/mod.rs::Elf::validate_header", "src/loader/elf/mod.rs::Elf::load"]}
{"id": "C37", "title": "ELF load result fields", "statement": "If Elf::load is Ok, kernel_load is e_entry (plus kernel_offset, without wrap), kernel_end is the maximum over PT_LOAD headers with p_filesz != 0 of load address + p_memsz (0 if there is none), and setup_header is None.", "quantifier": "every image and arguments", "why_tests_cant": "maximum over any number of segments, wrap-around included", "anchors": ["src/loader/elf/mod.rs::Elf::load", "src/loader/mod.rs::KernelLoaderResult"]}
{"id": "C38", "title": "kernel_end bounds everything the ELF loader wrote (expected, refuted; exact cases)", "statement": "If Elf::load is Ok, kernel_end is at or above the end of everything written if and only if the contents of every loaded segment end at or below the memory end of some loaded segment; in particular if no loaded segment has p_memsz < p_filesz. (It may be false otherwise, and pure-bss segments with p_filesz = 0 are not counted; both shown by example images.)", "quantifier": "every image and arguments", "why_tests_cant": "quantifies over malformed but accepted images", "anchors": ["src/loader/elf/mod.rs::Elf::load"]}
{"id": "C39", "title": "ELF high memory check", "statement": "With highmem_start_address h, Elf::load is Ok only if e_entry >= h; if the header is valid and e_entry < h it returns InvalidEntryAddress and guest memory is unchanged. The check does not take kernel_offset into account.", "quantifier": "every image and address", "why_tests_cant": "boundary over all addresses", "anchors": ["src/loader/elf/mod.rs::Elf::load"]}
{"id": "C40", "title": "Elf::load never panics and always terminates", "statement": "For every image of at most isize::MAX bytes, every memory layout, all arguments and every I/O fault schedule, Elf::load returns Ok or an error: no arithmetic overflow, no unbounded note loop.", "quantifier": "every image, arguments, memory layout and fault schedule", "why_tests_cant": "absence of overflow for all 64-bit header values", "anchors": ["src/loader/elf/mod.rs::Elf::load", "src/loader/elf/mod.rs::parse_elf_note", "src/loader/elf/mod.rs::align_up"]}
{"id": "C41", "title": "PVH entry point detection follows the ELF note format", "statement": "If a PT_NOTE segment of the image consists of a well-formed list of notes (4-byte aligned name and descriptor), then without kernel_offset the reported capability is PvhEntryPresent of the little-endian 32-bit descriptor of the first note of type 18 named 'Xen', InvalidPvhNote if that descriptor is shorter than 4 bytes, and PvhEntryNotPresent if there is no such note.", "quantifier": "every list of notes with arbitrary names, descriptors and types, at every file position", "why_tests_cant": "lists of any length with arbitrary sizes and padding", "anchors": ["src/loader/elf/mod.rs::parse_elf_note"]}
{"id": "C42", "title": "PVH capability of the load result", "statement": "If Elf::load is Ok: with kernel_offset the capability is PvhEntryIgnored; without it, it is the result of the last PT_NOTE header, and PvhEntryIgnored if there is none. (So a PVH note in an earlier of two PT_NOTE segments is lost: 'present if any note segment has it' is refuted.)", "quantifier": "every image and arguments", "why_tests_cant": "any number of note segments in any order", "anchors": ["src/loader/elf/mod.rs::Elf::load", "src/loader/elf/mod.rs::PvhBootCapability"]}
{"id": "C43", "title": "Relocation by kernel_offset is a pure shift", "statement": "If Elf::load is Ok with kernel_offset k, it writes to address a + k exactly the bytes that the load without offset writes to a, and kernel_load, kernel_end (if any segment is loaded) are shifted by k.", "quantifier": "every image, offset and memory", "why_tests_cant": "relates two executions for all inputs", "anchors": ["src/loader/elf/mod.rs::Elf::load"]}
{"id": "C44", "title": "A failing kernel load only touches target ranges", "statement": "If Elf::load, BzImage::load, PE::load or load_dtb fails, for any reason including an I/O error at any point, every guest memory byte outside the target ranges of the segments (respectively the image) is unchanged, and every changed byte inside is the byte of the image that belongs there. (For BzImage::load without kernel_offset this needs the header to be delivered by the reader's first read, see C57. The second half needs transfers that cannot misplace bytes: reads that deliver what there is, try_access, or a single memory region, see C70. Otherwise refuted.)", "quantifier": "every image, memory layout, arguments and every I/O fault schedule (crash point)", "why_tests_cant": "all failure points", "anchors": ["src/loader/elf/mod.rs::Elf::load", "src/loader/bzimage/mod.rs::BzImage::load", "src/loader/pe/mod.rs::PE::load", "src/loader/pe/mod.rs::load_dtb"]}
{"id": "C45", "title": "The reader's initial position is irrelevant", "statement": "Elf::load, BzImage::load, PE::load and load_dtb give the same result and the same guest memory whatever position the image reader is at when the call is made.", "quantifier": "every reader position, image and arguments", "why_tests_cant": "relates executions for all positions", "anchors": ["src/loader/elf/mod.rs::Elf::load", "src/loader/bzimage/mod.rs::BzImage::load", "src/loader/pe/mod.rs::PE::load", "src/loader/pe/mod.rs::load_dtb"]}
{"id": "C46", "title": "BzImage::load accepts only protocol >= 2.00 images loaded high", "statement": "If BzImage::load is Ok, the image has the HdrS magic at 0x202, version >= 0x200 at 0x206, bit 0 of loadflags at 0x211 set, and at least (setup_sects or 4, plus 1) * 512 bytes; a violation gives InvalidBzImage respectively Underflow, with guest memory unchanged.", "quantifier": "every byte string as image", "why_tests_cant": "all images, truncated ones included", "anchors": ["src/loader/bzimage/mod.rs::BzImage::load"]}
{"id": "C47", "title": "BzImage::load copies exactly the protected-mode kernel", "statement": "If BzImage::load is Ok, guest memory at kernel_load holds the image bytes from the end of the setup sectors to the end of the file, all other memory is unchanged, kernel_load is kernel_offset if given and else code32_start, and kernel_end = kernel_load + number of bytes copied.", "quantifier": "every image, memory layout and arguments", "why_tests_cant": "all sizes, layouts and contents", "anchors": ["src/loader/bzimage/mod.rs::BzImage::load"]}
{"id": "C48", "title": "The returned setup header is the image's", "statement": "If BzImage::load is Ok, the returned setup header equals the 123 bytes at 0x1F1 of the image in every field except code32_start, and code32_start equals the low 32 bits of kernel_load.", "quantifier": "every image and arguments", "why_tests_cant": "all header contents; also covers that a short header read cannot succeed", "anchors": ["src/loader/bzimage/mod.rs::BzImage::load", "src/loader_gen/x86_64/bootparam.rs::setup_header"]}
{"id": "C49", "title": "setup_header.code32_start names the load address (expected, refuted)", "statement": "If BzImage::load is Ok, code32_start of the returned header equals kernel_load. (False for a kernel_offset of 4 GiB or more, where it is silently truncated; proved below 4 GiB.)", "quantifier": "every image and kernel_offset", "why_tests_cant": "needs loads above 4 GiB", "anchors": ["src/loader/bzimage/mod.rs::BzImage::load"]}
{"id": "C50", "title": "bzImage high memory check", "statement": "With highmem_start_address h, BzImage::load is Ok only if the image's code32_start is >= h, and an otherwise valid image below h gives InvalidKernelStartAddress with guest memory unchanged. (The kernel being loaded at or above h is refuted when kernel_offset is given: the check ignores it.)", "quantifier": "every image and arguments", "why_tests_cant": "boundary over all addresses", "anchors": ["src/loader/bzimage/mod.rs::BzImage::load"]}
{"id": "C51", "title": "PE::load copies the whole image to base + text offset", "statement": "If PE::load is Ok (arm64 or riscv64), the whole file is in guest memory at kernel_load, all other memory is unchanged, kernel_load = kernel_offset (default 0) + text_offset where text_offset is the header field (0x80000 on arm64 if image_size is 0), without wrap, and kernel_end = kernel_load + file length.", "quantifier": "every image, memory layout and arguments, both architectures", "why_tests_cant": "all sizes, layouts, offsets", "anchors": ["src/loader/pe/mod.rs::PE::load"]}
{"id": "C52", "title": "PE::load rejects bad magic and misaligned bases without side effects", "statement": "PE::load returns InvalidImageMagicNumber iff the 64-byte header is readable and its magic is wrong, and otherwise InvalidBaseAddrAlignment iff a kernel_offset is given that is not a multiple of 2 MiB; in both cases guest memory is unchanged.", "quantifier": "every image and offset", "why_tests_cant": "all images and offsets", "anchors": ["src/loader/pe/mod.rs::PE::load"]}
{"id": "C53", "title": "load_dtb loads exactly blobs of at most 2 MiB", "statement": "load_dtb is Ok iff the blob is at most 0x200000 bytes long and its target range is mapped; then guest memory holds the blob at the address and is otherwise unchanged; a larger blob gives DtbTooBig with guest memory unchanged.", "quantifier": "every blob, address and memory layout", "why_tests_cant": "exact boundary over all sizes and layouts", "anchors": ["src/loader/pe/mod.rs::load_dtb"]}
{"id": "C54", "title": "bzImage and PE loaders never panic and fail only as documented", "statement": "For every image of at most isize::MAX bytes, memory layout, arguments and I/O fault schedule, BzImage::load, PE::load and load_dtb return Ok or an error without arithmetic overflow, and on a fault-free reader they succeed iff the image is valid, the addresses do not wrap and the target range is mapped.", "quantifier": "every image, arguments, memory layout and fault schedule", "why_tests_cant": "exact success condition for all inputs", "anchors": ["src/loader/bzimage/mod.rs::BzImage::load", "src/loader/pe/mod.rs::PE::load", "src/loader/pe/mod.rs::load_dtb"]}
{"id": "C55", "title": "Disjoint boot artefacts coexist", "statement": "Calls of the loaders (Elf, BzImage, PE, load_dtb), load_cmdline, the boot configurators, and writes of the VMM itself, in any order on one guest memory, stopping at the first failure, with pairwise disjoint target ranges: at the end the bytes of every successful call are intact in guest memory, and nothing outside the target ranges has changed, whether the last call succeeded or failed at any point. With overlapping ranges and all calls successful, memory is the old one overwritten in call order. The order of the calls does not matter: in any other order they all succeed if and only if they do in this one, and with disjoint targets leave the same memory.", "quantifier": "every finite sequence of calls, every image, command line, boot parameters, memory layout, choice of addresses and I/O fault schedule", "why_tests_cant": "composition over all inputs", "anchors": ["src/loader/elf/mod.rs::Elf::load", "src/loader/mod.rs::load_cmdline", "src/configurator/mod.rs::BootConfigurator::write_bootparams"]}
{"id": "C56", "title": "Fixed-layout structures have the documented offsets", "statement": "Under the C (packed respectively aligned) layout rules the fields of boot_params and of every structure inside it, setup_header, hvm_start_info, hvm_modlist_entry, hvm_memmap_table_entry, all exported 32- and 64-bit ELF structures and the arm64/riscv64 Image headers lie at the offsets of the boot protocols (setup_header at 0x1f1, e820_table at 0x2d0, ...) with no hidden padding, the documented sizes and the alignment of the C declarations (none for the zero page); and the values the loaders extract from an image's bytes are those of the named fields at these offsets, for every image.", "quantifier": "every field of the structures (a finite table); every byte string for the decoded values; every structure definition for disjointness", "why_tests_cant": "the compile-time assertions only check sizes, not field offsets", "anchors": ["src/loader_gen/x86_64/bootparam.rs", "src/loader_gen/x86_64/start_info.rs", "src/loader_gen/x86_64/elf.rs", "src/loader/pe/mod.rs: arm64_image_header, riscv64_image_header"]}
{"id": "C57", "title": "A truncated read of the bzImage header is detected (expected, refuted)", "statement": "If the image reader delivers fewer than 123 bytes of setup header (a short read), BzImage::load does not succeed with a wrong header. (False: load uses read_volatile, not read_exact_volatile, and ignores the byte count, so after a short read the missing fields, e.g. code32_start, are silently zero. Proved for readers that never deliver less than they could.)", "quantifier": "every image, memory layout, arguments and every reader behaviour, short reads included", "why_tests_cant": "Short reads are an environment choice at each read; the tests only use in-memory cursors, which never shorten a read of available data.", "anchors": ["src/loader/bzimage/mod.rs: BzImage::load"]}
{"id": "C58", "title": "The kernel separates boot and init arguments where the builder did", "statement": "For any history of calls on a fresh command line whose accepted boot arguments are balanced in quotes and contain no '--' of their own, the kernel's parse_args stops exactly at the ' -- ' inserted by the builder and hands the init arguments, joined by single spaces, to init; without init arguments it sees none. (False with unbalanced quotes, shown by example.)", "quantifier": "every interleaving of boot and init insertions of any length", "why_tests_cant": "Tests fix a few lines; the claim relates two programs (builder and kernel parser) over all histories.", "anchors": ["src/cmdline/mod.rs: Cmdline::insert, Cmdline::insert_init_args, Cmdline::as_cstring"]}
{"id": "C59", "title": "Boot and init insertions commute", "statement": "If insert_str(s) and then insert_init_args(i) with non-blank i are accepted, then they are also accepted in the other order, and both orders give the same command line; and conversely.", "quantifier": "every reachable command line and pair of arguments", "why_tests_cant": "Holds for all states and arguments, including those at the capacity boundary.", "anchors": ["src/cmdline/mod.rs: Cmdline::insert_str, Cmdline::insert_init_args"]}
{"id": "C60", "title": "More capacity never hurts", "statement": "A builder call accepted on a command line is also accepted, with the same resulting arguments, on a command line with the same arguments and a larger capacity.", "quantifier": "every pair of reachable command lines with equal arguments, every builder call", "why_tests_cant": "Monotonicity over all states and capacities.", "anchors": ["src/cmdline/mod.rs: Cmdline"]}
{"id": "C61", "title": "align_up rounds up exactly", "statement": "For every power of two the rounding used for ELF notes yields the least multiple that is not below the address whenever that fits in 64 bits; any other alignment gives the Align error. (The source comment that the addition cannot overflow is false for addresses in the last alignment unit below 2^64; the callers never get there.)", "quantifier": "every 64-bit address and alignment", "why_tests_cant": "two 64-bit arguments; the boundary at 2^64 is not exercised by the tests", "anchors": ["src/loader/elf/mod.rs: align_up"]}
{"id": "C62", "title": "The outcome of Elf::load is determined by the first obstacle", "statement": "On a reader without I/O faults Elf::load succeeds iff the image is acceptable (complete valid header, entry point at or above high memory, complete program headers, non-wrapping addresses, segments inside the file and inside mapped memory, parseable notes) and otherwise returns the error of the first violated condition, header first, then the program headers in order.", "quantifier": "every image, memory layout and arguments", "why_tests_cant": "the conditions interact and are checked in sequence for an arbitrary number of program headers and notes", "anchors": ["src/loader/elf/mod.rs: Elf::load, parse_elf_note"]}
{"id": "C63", "title": "The kernel finds every zero-page field at its documented offset", "statement": "After the Linux configurator has written a boot_params value, every field of the zero page documented by the kernel (zero-page.rst), every integer field of the setup header (boot.rst) and every entry of the e820 memory map is found at its documented offset with the value it had in the structure; the page takes 4096 bytes and no other guest byte changes.", "quantifier": "every boot_params value, every zero page address, every guest memory", "why_tests_cant": "Tests write one value and compare with the crate's own encoding; the claim is about the independent kernel layout and all values.", "anchors": ["src/loader_gen/x86_64/bootparam.rs: boot_params, setup_header, boot_e820_entry", "src/configurator/x86_64/linux.rs: write_bootparams"]}
{"id": "C64", "title": "From bzImage to zero page", "statement": "If the setup header returned by BzImage::load is placed in boot_params.hdr and written by the Linux configurator, the kernel finds the address at which it was loaded (modulo 4 GiB) in code32_start at 0x214 of the zero page and every other byte of its setup header as in its image.", "quantifier": "every image, loader arguments, zero page address and memory; readers that deliver the header in one piece", "why_tests_cant": "A composition of two calls over all images and values.", "anchors": ["src/loader/bzimage/mod.rs: BzImage::load", "src/configurator/x86_64/linux.rs: write_bootparams"]}
{"id": "C65", "title": "Error messages identify the error", "statement": "Two different loader errors (with the image-format error they wrap), two different command line builder errors (with the key of MissingVal) and two different PVH capabilities (with the address) never print the same message; a loader error has a source exactly when it wraps an image-format error, and its message ends with that source's message. A configurator error is identified by its message together with its source's message; its message alone identifies only the protocol. Every error prints the text its Display implementation gives it, in full, with its own and its module's prefix.", "quantifier": "all pairs of error values, all keys, all addresses", "why_tests_cant": "Tests check one value of each message; the claim compares all pairs and unbounded payloads.", "anchors": ["src/loader/mod.rs: impl Display/Error/From for Error", "src/loader/elf/mod.rs: impl Display for Error, PvhBootCapability", "src/loader/bzimage/mod.rs", "src/loader/pe/mod.rs", "src/cmdline/mod.rs: impl Display for Error", "src/configurator/mod.rs: impl Display/Error for Error"]}
{"id": "C66", "title": "Earlier memory contents are irrelevant", "statement": "For two guests with the same memory layout but different contents, every loader, load_cmdline and every configurator returns the same outcome (result, error or panic) and changes the same addresses to the same values; so does any sequence of these calls, stopped at the first failure.", "quantifier": "every image, reader fault schedule, argument, boot parameter set, memory layout and pair of contents; every sequence of calls", "why_tests_cant": "Tests start from zeroed memory only.", "anchors": ["src/loader/elf/mod.rs: Elf::load", "src/loader/bzimage/mod.rs: BzImage::load", "src/loader/pe/mod.rs: PE::load, load_dtb", "src/loader/mod.rs: load_cmdline", "src/configurator: write_bootparams"]}
{"id": "C67", "title": "Every call can be repeated", "statement": "Calling a loader, load_cmdline or a configurator a second time with the same input (fresh reader on the same image, same faults) has the same outcome and leaves guest memory exactly as the first call left it, also if the first call failed half way; the same holds for a whole boot sequence.", "quantifier": "every input, every fault schedule, every memory; every sequence of calls", "why_tests_cant": "Tests do not compare memory after a repetition, nor after failures.", "anchors": ["src/loader/elf/mod.rs: Elf::load", "src/loader/bzimage/mod.rs: BzImage::load", "src/loader/pe/mod.rs: PE::load, load_dtb", "src/loader/mod.rs: load_cmdline", "src/configurator: write_bootparams"]}
{"id": "C68", "title": "More guest memory never hurts", "statement": "If a loader, load_cmdline, a configurator or a sequence of them succeeds on a guest, it also succeeds, with the same result and the same effect, on a guest that maps every address the first one maps and more.", "quantifier": "every input and every pair of memories of which the second maps more", "why_tests_cant": "Tests use one fixed memory size.", "anchors": ["src/loader/elf/mod.rs: Elf::load", "src/loader/bzimage/mod.rs: BzImage::load", "src/loader/pe/mod.rs: PE::load, load_dtb", "src/loader/mod.rs: load_cmdline", "src/configurator: write_bootparams"]}
{"id": "C69", "title": "Builds with and without overflow checks agree", "statement": "Where the crate uses unchecked additions, a build in which they wrap behaves like one in which they panic on overflow: Elf::load has the same outcome, reader state and memory for every image; every history of command line builder calls gives the same command line and results; adding a boot parameter section or module has the same outcome (where the checked addition panics, so does the wrapped build).", "quantifier": "every image shorter than isize::MAX and fault schedule; every reachable command line and call; every list and element", "why_tests_cant": "Tests run in one profile; the overflow corner cases need sizes near 2^64.", "anchors": ["src/loader/elf/mod.rs: align_up, parse_elf_note", "src/cmdline/mod.rs: get_null_terminated_representation_size", "src/configurator/mod.rs: add_boot_parameter_to_list"]}
{"id": "C70", "title": "Readers may deliver bytes in any pieces", "statement": "Whatever the single read and seek calls of the reader do (short reads, interruptions, errors), a load that ends has an outcome and leaves memory as in one of the I/O behaviours all other properties are stated for. If no call fails or is interrupted, ELF, PE and DTB loads have exactly the outcome and memory effect of a reader without short reads (with get_slices: if reads are full); for bzImage this needs full reads. A successful ELF, PE or DTB load, whatever it went through, has the result and memory contents of a load without faults. All loads end if calls are not interrupted for ever. (Finding: with get_slices, a short read at a region boundary makes the load fail and leaves bytes at wrong addresses.)", "quantifier": "every image, memory layout, arguments and every infinite sequence of outcomes of the single read and seek calls, for both ways vm-memory walks regions", "why_tests_cant": "Tests use std::io::Cursor, which never delivers short reads, is never interrupted and never fails.", "anchors": ["src/loader/elf/mod.rs: Elf::load", "src/loader/bzimage/mod.rs: BzImage::load", "src/loader/pe/mod.rs: PE::load, load_dtb"]}
{"id": "C71", "title": "How guest memory is divided into regions is irrelevant", "statement": "Writing a slice region by region, by either algorithm of vm-memory, writes the bytes up to the first unmapped address and succeeds iff there is none in the range. Loaders, load_cmdline, configurators and sequences of them have the same outcome and the same effect on two guest memories that map the same addresses with the same contents, however these are divided into regions.", "quantifier": "every list of regions, address and slice; every input and every pair of well-formed memories with the same mapped addresses", "why_tests_cant": "Tests use one or two fixed regions.", "anchors": ["src/loader/elf/mod.rs: Elf::load", "src/loader/bzimage/mod.rs: BzImage::load", "src/loader/pe/mod.rs: PE::load, load_dtb", "src/loader/mod.rs: load_cmdline", "src/configurator: write_bootparams"]}
{"id": "C72", "title": "Algebra of insertions", "statement": "Inserting several strings (non-blank, without white space at the ends) one after the other is accepted iff inserting them at once, joined by single spaces, is, and the resulting command line is the same, for boot and for init arguments. insert(k, v) with a legal key and value is insert_str(\"k=v\"). A command line accepted by try_from whose parts are printable can be built by new, insert_str and insert_init_args with the same capacity.", "quantifier": "every reachable command line and every list of strings; every key and value; every raw string and capacity", "why_tests_cant": "Universal over strings, lists and capacities including the exact fit.", "anchors": ["src/cmdline/mod.rs: insert_str, insert_init_args, insert, try_from"]}
{"id": "C73", "title": "A Linux guest finds what the VMM prepared", "statement": "After a sequence of successful calls, in any order and on disjoint parts of memory, that loads a bzImage, loads a command line built from scratch, and writes a zero page whose setup header is the one returned by the loader with cmd_line_ptr/ext_cmd_line_ptr, e820_entries and e820_table filled in, the kernel that starts from that zero page and follows the pointers in memory finds exactly the parameters the VMM inserted, the init arguments, the memory map and, at code32_start, its own protected-mode code.", "quantifier": "every sequence of calls on disjoint parts, every image, every history of insertions, every memory map and every memory layout", "why_tests_cant": "Tests check one step at a time; no test reads memory back the way the guest does.", "anchors": ["src/loader/bzimage/mod.rs: BzImage::load", "src/loader/mod.rs: load_cmdline", "src/configurator/x86_64/linux.rs: write_bootparams", "src/cmdline/mod.rs: insert, as_cstring"]}
{"id": "C74", "title": "A PVH guest finds what the VMM prepared", "statement": "The same for an ELF kernel started by PVH: following the pointers of the start info, the guest finds the inserted parameters, the init arguments, the memory map and the modules, and every loadable segment is at its address.", "quantifier": "every sequence of calls on disjoint parts, every image with disjoint segments, every history of insertions, memory map and module list", "why_tests_cant": "Tests check one step at a time.", "anchors": ["src/loader/elf/mod.rs: Elf::load", "src/loader/mod.rs: load_cmdline", "src/configurator/x86_64/pvh.rs: write_bootparams"]}
{"id": "C75", "title": "How much work an image can cause", "statement": "Loading a bzImage or PE image takes at most 5 reader operations, a device tree blob at most 3. Loading an ELF image of L bytes takes at most 4 + min(phnum, L/56) * (5 + 3L/16) operations, whatever the reader does: at most quadratic in the size of the image. (Finding: work is not proportional to the size: for all p < 65536 and n the image with p program headers sharing one note segment of n empty notes has 64 + 56p + 12n bytes and takes exactly 3 + p + p(1+2n) operations; one of 7.6 MB takes more than 42 thousand million.) Likewise the bytes stored in guest memory: a bzImage, PE image or device tree blob never stores more than it has (on success exactly kernel_end - kernel_load, or the whole blob, at most 2 MiB); an ELF image stores at most min(phnum, L/56) * L, on success exactly the sum of the file sizes of its loadable segments, whatever other users of the memory do meanwhile. (Finding: this is not proportional to the size either: p program headers may share one segment of n bytes, so that an image of 64 + 56p + n bytes stores pn; one of 7.7 MB stores more than 250 thousand million bytes in 4 MB of guest memory.)", "quantifier": "every image, argument, memory and fault schedule", "why_tests_cant": "A bound over all images including adversarial ones.", "anchors": ["src/loader/elf/mod.rs: Elf::load, parse_elf_note", "src/loader/bzimage/mod.rs: BzImage::load", "src/loader/pe/mod.rs: PE::load, load_dtb"]}
{"id": "C76", "title": "ELF info helpers", "statement": "ELF_ST_BIND/TYPE, ELF32_R_SYM/TYPE and ELF64_R_SYM/TYPE take apart what ELF_ST_INFO, ELF32_R_INFO and ELF64_R_INFO of the ELF specification put together, and nothing is lost.", "quantifier": "every value of the info fields, every pair of parts", "why_tests_cant": "Universal over 2^64 values; there are no tests.", "anchors": ["src/loader_gen/x86_64/elf.rs: ELF_ST_BIND, ELF_ST_TYPE, ELF32_R_SYM, ELF32_R_TYPE, ELF64_R_SYM, ELF64_R_TYPE"]}
{"id": "C77", "title": "Default values and equality of boot structures", "statement": "The default value of every exported structure is all zeros in memory. A zero page made from boot_params::default() by assigning some fields, once written, reads as zero in all other fields (e.g. sentinel). Two values of an exported structure are == iff their bytes are equal.", "quantifier": "every exported structure, every list of assignments, every address and memory", "why_tests_cant": "Universal over assignments and field values.", "anchors": ["src/loader_gen/x86_64/bootparam.rs: Default for boot_params, edid_info", "src/loader_gen/x86_64/start_info.rs", "src/configurator/x86_64/linux.rs: write_bootparams"]}
{"id": "C78", "title": "Well-formed images are accepted", "statement": "A file laid out as the ELF specification says for an executable (any layout of headers and contents, shared or padded, any values of the fields the loader does not need) is loaded iff the executable fits into guest memory, its entry point is at or above highmem and its PVH notes are complete; the result is its entry point, highest end and PVH entry, and memory holds its segments. A file with the setup header fields of the Linux boot protocol at the documented offsets is loaded as bzImage iff its address is at or above highmem and its range is mapped; the returned setup header has all the values of the image except code32_start. A file with the documented arm64 or riscv64 header is loaded iff kernel_offset is aligned and its range is mapped.", "quantifier": "every executable, layout, header values, kernel, memory, kernel_offset and highmem", "why_tests_cant": "Tests load a handful of fixed images.", "anchors": ["src/loader/elf/mod.rs: Elf::load", "src/loader/bzimage/mod.rs: BzImage::load", "src/loader/pe/mod.rs: PE::load"]}
{"id": "C79", "title": "An arm64 or riscv64 guest finds what the VMM prepared", "statement": "A VMM makes any sequence of successful library calls on pairwise disjoint parts of guest memory, among them PE::load of an Image with result r and putting a device tree blob at da (load_dtb or the FDT configurator). Then, whatever their order, the guest entered at r.kernel_load finds there the complete image with the magic number of its architecture, at the text offset that the boot protocol demands from a 2 MiB aligned base, and at da the device tree; a blob put there by load_dtb has at most 2 MiB. Expected in addition: the blob is 8-byte aligned and at most 2 MiB however it was put there (arm64 booting.rst); refuted, nothing checks this.", "quantifier": "every sequence of calls, image, blob, memory, kernel_offset and address", "why_tests_cant": "Universal over sequences of calls and images.", "anchors": ["src/loader/pe/mod.rs: PE::load, load_dtb", "src/configurator/fdt.rs: FdtBootConfigurator::write_bootparams"]}
{"id": "C80", "title": "What may be placed at kernel_end", "statement": "KernelLoaderResult::kernel_end is documented as the place behind the kernel for a device tree blob or initrd. Expected: the memory from kernel_end on is not used by the starting kernel. Exact: for an Image this holds iff the image size in its header does not exceed the size of the file; for a bzImage of protocol 2.10 or later iff init_size does not exceed the size of the protected-mode kernel. Refuted in general: kernel_end ignores uninitialised data.", "quantifier": "every successful load of an Image or bzImage", "why_tests_cant": "Universal over images.", "anchors": ["src/loader/mod.rs: KernelLoaderResult::kernel_end", "src/loader/pe/mod.rs: PE::load", "src/loader/bzimage/mod.rs: BzImage::load"]}
{"id": "C81", "title": "Probing the format of an image", "statement": "Trying the loaders one after the other with the same reader and guest memory: a loader that does not recognise the header fails and leaves guest memory unchanged; a loader that succeeds has recognised it; loaders in front that do not recognise the image do not influence the outcome of the others on a reader without faults (the reader's position does not matter); if none recognises it memory is unchanged. The order matters: there are images accepted both as ELF and as bzImage with different results.", "quantifier": "every list of loaders, image, reader behaviour, memory, kernel_offset and highmem", "why_tests_cant": "Universal over images, lists of loaders and I/O faults.", "anchors": ["src/loader/mod.rs: KernelLoader", "src/loader/elf/mod.rs: Elf::load", "src/loader/bzimage/mod.rs: BzImage::load", "src/loader/pe/mod.rs: PE::load"]}
{"id": "C82", "title": "Command line strings are handled correctly as UTF-8 bytes", "statement": "The code takes byte lengths, slices by byte index, decodes characters from both ends and searches for bytes. For every string (any well-formed UTF-8, Table 3-7 of the Unicode standard) and every history of calls: no call panics (in particular none slices inside a character, none decodes malformed bytes), the stored boot and init arguments and the rendering stay well-formed UTF-8, and every result and effect is the one given by handling the string as a sequence of characters.", "quantifier": "every well-formed byte string shorter than 2^63, every history of builder calls, every capacity", "why_tests_cant": "Universal over strings with multi-byte characters in any place and histories.", "anchors": ["src/cmdline/mod.rs: try_from, insert_str, insert_init_args, insert, insert_multiple, as_cstring, is_quoted, contains_double_quotes"]}
{"id": "C83", "title": "Calls in concurrent threads, and crashes at any moment", "statement": "Guest memory is shared by reference. What a sequence of loader and configurator calls does - outcomes and bytes stored - depends neither on the contents of guest memory nor on what other threads store meanwhile. Threads making such calls at the same time, no two with a common target address, and something else storing arbitrary bytes: however the stores are interleaved, byte by byte, each call has the outcome it has alone, and every address the other party does not touch ends up as if the threads had run one after the other, in any order. If everything stops after any number of bytes, only targets have changed, and starting the calls again gives the outcomes and the memory of an uninterrupted run. Calls with common targets can all succeed and leave a mixture.", "quantifier": "every number of threads, list of calls per thread, interleaving of the stored bytes, order within an operation, crash point, environment, memory contents and I/O behaviour", "why_tests_cant": "Universal over schedules and crash points.", "anchors": ["src/loader/mod.rs: load_cmdline, KernelLoader::load", "src/loader/elf/mod.rs: Elf::load", "src/loader/bzimage/mod.rs: BzImage::load", "src/loader/pe/mod.rs: PE::load, load_dtb", "src/configurator/x86_64/linux.rs, src/configurator/x86_64/pvh.rs, src/configurator/fdt.rs: write_bootparams"]}
{"id": "C84", "title": "Bytes of a kernel image that do not matter", "statement": "Elf::load's result, errors and effect on guest memory depend only on: the magic number, byte order, e_entry, e_phoff, e_phentsize and e_phnum; of every program header p_type, p_offset, p_paddr, p_filesz and p_memsz; the contents of loadable segments; and, without kernel_offset, the note segments plus up to 19 bytes behind each. Everything else (section headers, p_vaddr, p_flags, p_align, bytes appended to an accepted file) is irrelevant. Expected and refuted: that only 64-bit x86-64 executables are accepted (class, type and machine are ignored: every accepted image has an equally loaded twin with any values there), and that bytes outside headers and segments are irrelevant (a note straddling the end of its segment). BzImage::load depends only on the size of the file, the setup header and the protected-mode kernel.", "quantifier": "every pair of images agreeing on these bytes, kernel_offset, high memory limit, guest memory and reader behaviour (I/O errors and short reads anywhere)", "why_tests_cant": "A statement about pairs of arbitrary images.", "anchors": ["src/loader/elf/mod.rs: Elf::load, Elf::validate_header, parse_elf_note", "src/loader/bzimage/mod.rs: BzImage::load"]}
{"id": "C85", "title": "Readers that may do anything: images that change while they are loaded", "statement": "The loaders stay safe and accountable for every implementation of Read + ReadVolatile + Seek, including a file that somebody else writes to during the load, a device, or a hostile reader that answers every request as it likes. Only mapped guest memory in the ranges described by the headers that the reader delivered is changed, and nothing at all unless those headers passed every check (magic number, version, flags, alignment, entry address, size); a successful result (kernel_load, kernel_end, setup_header, PVH entry) is the one of the delivered headers and sizes, each fetched once; BzImage::load, PE::load and load_dtb never panic, and Elf::load does not if a kernel offset is given or nothing is delivered beyond i64::MAX; the number of requests is bounded (5 for bzImage and PE, 3 for device trees, and for ELF a function of the delivered headers). Readers on unchanging files with arbitrary I/O errors and short reads are a special case. Expected and refuted: that the PE image in guest memory is the one whose header was checked (the header is fetched twice), that Elf::load never panics (p_offset + read_size overflows for a reader delivering data at 2^64-1), and that the work of Elf::load is bounded by the headers' size (a device of zeroes is read for as many notes as p_filesz has room for).", "quantifier": "every reader (answers depending arbitrarily on the history of requests), kernel_offset, high memory limit and guest memory", "why_tests_cant": "Quantifies over all adversarial reader behaviours.", "anchors": ["src/loader/elf/mod.rs: Elf::load, parse_elf_note", "src/loader/bzimage/mod.rs: BzImage::load", "src/loader/pe/mod.rs: PE::load, load_dtb"]}
{"id": "C86", "title": "Failed operations are reported, and only they", "statement": "Whatever the reader does, once a seek, read or transfer into guest memory fails the loader makes no further request and returns the error variant documented for exactly that operation (SeekElfStart, ReadElfHeader, SeekProgramHeader at e_phoff, ReadProgramHeader, SeekKernelStart and ReadKernelImage for a loadable segment, SeekNoteHeader and ReadNoteHeader for a note segment, and likewise for bzImage, PE and device tree); such an error is returned only if this operation failed. Likewise load_cmdline and write_bootparams over any implementation of guest memory: no failed check or write is ignored, each has its own error, and Ok means that exactly the documented pieces were written successfully in the documented order.", "quantifier": "every reader and guest memory implementation, failing at any request, every image, command line, boot parameters and arguments", "why_tests_cant": "A fault can hit any request, whose number depends on the image; tests inject a few.", "anchors": ["src/loader/elf/mod.rs Elf::load, parse_elf_note", "src/loader/bzimage/mod.rs BzImage::load", "src/loader/pe/mod.rs PE::load, load_dtb", "src/loader/mod.rs load_cmdline", "src/configurator/x86_64/linux.rs, pvh.rs, src/configurator/fdt.rs write_bootparams"]}
{"id": "C87", "title": "Boot parameters built call by call, as the PVH guest finds them", "statement": "Build boot parameters with any sequence of set_sections, set_modules, add_section and add_module calls, accepted or refused, and write them with the PVH configurator. If writing succeeds, then at every address guest memory holds the latest accepted module element, or zero in a gap of the module list; elsewhere the start info; elsewhere the latest accepted memory map element, or zero in a gap of that list; elsewhere what it held before. In particular an element is found at the address that its add call returned, unless something written later covers it. Writing succeeds exactly if some memory map element was accepted, the memory map and the start info are mapped with one more byte behind each, and either no call was about modules or some module was accepted and the module list is accessible.", "quantifier": "every sequence of calls on BootParams, every start info, address and guest memory", "why_tests_cant": "The history of calls is unbounded and each can have any element size and address; gaps, overlaps and refusals combine.", "anchors": ["src/configurator/mod.rs: BootParams::new, set_sections, set_modules, add_section, add_module, add_boot_parameter_to_list", "src/configurator/x86_64/pvh.rs: PvhBootConfigurator::write_bootparams"]}
{"id": "C88", "title": "What Elf::load does depends on the program, not on how the file is arranged", "statement": "Two ELF files that stand for the same program (same entry point, same bytes at the same addresses, same highest end in memory, same note segments) are treated alike whatever their layout: header and contents may be at other file offsets, shared, padded or overlapping, fields the loader does not use may differ. One is loaded if and only if the other is; then the results (kernel_load, kernel_end, PVH entry) and guest memory are equal. In particular dividing a segment in two, and listing segments in another order if their bytes do not overlap and note segments stay in order, makes no difference. Expected and refuted: that the order of segments never matters (overlapping segments; several note segments, of which the last counts).", "quantifier": "every pair of executables and layouts of them, kernel_offset, highmem and guest memory", "why_tests_cant": "Relates two runs over all layouts of all programs.", "anchors": ["src/loader/elf/mod.rs: Elf::load, parse_elf_note"]}
{"id": "C89", "title": "Truncated images", "statement": "Cut a kernel image off after n bytes. ELF: if Elf::load accepts the rest, result and guest memory are those of the complete image; a rest that lacks part of the ELF header, of a program header or of a loadable segment is rejected, and the error says which of header, program header, segment or note could not be read. bzImage, PE and device tree (expected to be detected, refuted): exactly the truncations that keep the real-mode part of a bzImage or the 64 bytes of a PE header are accepted, every truncation of a device tree is accepted by load_dtb where the complete one is, and the result differs at most in kernel_end; a VMM can detect a truncated bzImage by comparing syssize in the returned setup header with kernel_end - kernel_load.", "quantifier": "every image, every truncation length n, kernel_offset, highmem, guest memory (ELF: also every reader behaviour)", "why_tests_cant": "Every cut of every image; the claim relates two runs.", "anchors": ["src/loader/elf/mod.rs: Elf::load", "src/loader/bzimage/mod.rs: BzImage::load", "src/loader/pe/mod.rs: PE::load, load_dtb"]}
{"id": "C90", "title": "Where the guest starts to execute", "statement": "After a successful Elf::load the address k bytes behind kernel_load holds a byte of the image exactly if some loadable segment has file contents for that address; it is then mapped and holds the byte of the last such segment, and otherwise is as before the load. After BzImage::load the address kernel_load + k is below kernel_end exactly if the protected-mode kernel has a byte k, and is then mapped and holds it. After PE::load kernel_load is mapped and holds the first instructions of the image. Expected and refuted: that kernel_load is always in what was loaded, mapped, and where the image starts (ELF entry point and PVH entry point are unchecked; a bzImage may have no protected-mode kernel, or one too short for the 64-bit entry at 0x200).", "quantifier": "every image, reader behaviour, kernel_offset, highmem, guest memory and offset k", "why_tests_cant": "Every image and every offset; the accepted bad entry points are not in any test image.", "anchors": ["src/loader/mod.rs: KernelLoaderResult", "src/loader/elf/mod.rs: Elf::load", "src/loader/bzimage/mod.rs: BzImage::load", "src/loader/pe/mod.rs: PE::load"]}
{"id": "C91", "title": "Builder calls with arguments that change or panic", "statement": "The arguments of insert, insert_multiple, insert_str and insert_init_args are of any type with AsRef<str>, whose as_ref may give another string at every call or panic. insert, insert_str and insert_init_args ask each argument once and act on that answer; insert_multiple asks each value twice, validates the first and inserts the second answer. A panic leaves the command line unchanged. Whatever the arguments do, the command line after any history is one that calls with fixed strings can build, so it keeps the capacity and printable ASCII. Expected and refuted: that insert_multiple inserts only validated values.", "quantifier": "every behaviour of the arguments, every history of builder calls", "why_tests_cant": "as_ref is arbitrary code of the caller; tests use string literals.", "anchors": ["src/cmdline/mod.rs: Cmdline::insert, insert_multiple, insert_str, insert_init_args"]}
{"id": "C92", "title": "Memory of the VMM that the crate uses", "statement": "Whatever the image and the reader do, no buffer Elf::load fills itself is longer than 64 bytes and it keeps at most 65535 program headers of 56 bytes; the buffers of one BzImage::load, PE::load and load_dtb have together at most 123, 64 and 0 bytes: everything else goes to guest memory directly, so an untrusted image cannot exhaust the VMM's memory. The lists of a BootParams have exactly the bytes from the first accepted piece to the end of the last, and the two strings of a command line have together less bytes than its capacity. Expected and refuted: that the memory of a BootParams is bounded by what was added (an element at a distant address allocates the whole gap).", "quantifier": "every image and reader behaviour, every guest memory, every history of add_section / add_module calls and of builder calls", "why_tests_cant": "A bound on allocations over all untrusted images; tests use a few well-formed images.", "anchors": ["src/loader/elf/mod.rs: Elf::load, parse_elf_note", "src/loader/bzimage/mod.rs: BzImage::load", "src/loader/pe/mod.rs: PE::load, load_dtb", "src/configurator/mod.rs: BootParams::add_section, add_module", "src/cmdline/mod.rs: Cmdline"]}
{"id": "C93", "title": "virtio-mmio devices as the kernel's driver registers them", "statement": "After any history of builder calls on a fresh command line (accepted key/value arguments being kernel-safe and not naming virtio_mmio.device themselves), the kernel's virtio-mmio driver, reading the rendered line, registers exactly the devices of the accepted add_virtio_mmio_device calls with an interrupt other than 0, in order: the range base .. base + size - 1, the interrupt asked for, and the id asked for or the one following that of the previous device. With ids below 2^31 for every device they are as asked for; without ids they count from 0. Expected and refuted: that every accepted device is registered (interrupt 0 is ignored by the kernel), that ids are as asked for (2^31 or more become negative) and different (a device without id can get that of another).", "quantifier": "every history of builder calls, every size, base, interrupt and id", "why_tests_cant": "Unbounded histories, all 2^64 sizes and addresses; the effect is in the kernel, which tests do not run.", "anchors": ["src/cmdline/mod.rs: Cmdline::add_virtio_mmio_device, guestusize_to_str, insert, insert_multiple, insert_init_args, as_cstring"]}
{"id": "C94", "title": "What the kernel sees of a parsed command line", "statement": "If an ASCII line with balanced double quotes is parsed by Cmdline::try_from and rendered again, the kernel gets the same parameters with the same values, and init the same arguments, from the rendering as from the original line. Builder calls on the parsed command line, with arguments that are balanced and have no '--' of their own, append to what the kernel and init get, provided the kernel does not stop within the boot arguments. Expected and refuted: without balanced quotes (white space behind an unmatched quote is removed), for Unicode white space, and for insertions behind a '--' between tabs.", "quantifier": "every ASCII line with balanced quotes, every capacity, every history of builder calls on it", "why_tests_cant": "Ranges over all strings; what counts is the view of the kernel's tokeniser, which tests do not run.", "anchors": ["src/cmdline/mod.rs: Cmdline::try_from, as_cstring, insert, insert_multiple, insert_str, insert_init_args"]}
{"id": "C95", "title": "The capacity that a command line needs", "statement": "Any sequence of builder calls with legal, non-blank arguments on a fresh command line is accepted completely if and only if the capacity is at least the sum of the lengths of the argument texts plus one each (at least 1), and 3 more if there are init arguments - so a VMM can compute the capacity beforehand, independently of the order of the calls.", "quantifier": "every sequence of builder calls of any length and interleaving, every capacity", "why_tests_cant": "Unbounded sequences of calls; a test shows the boundary for single literals only.", "anchors": ["src/cmdline/mod.rs: Cmdline::new, insert, insert_multiple, insert_str, insert_init_args, add_virtio_mmio_device"]}
{"id": "C96", "title": "ELF files of every class, byte order and numbering", "statement": "If Elf::load accepts a 64-bit ELF file with fewer than 65535 program headers, then the file is little-endian with 56-byte entries, and guest memory, entry point and kernel end are those that the ELF specification (both classes, both byte orders, any entry size, extended numbering) gives for the file. Big-endian files and 64-bit files with another entry size are rejected with the documented error and leave memory unchanged; so are 32-bit files with the program headers directly behind the header. Refuted expectations: a 32-bit file can be accepted without its segments being loaded (the class is not checked), and of a file with extended numbering (e_phnum = PN_XNUM) only the first 65535 program headers count, so that a file with 65536 headers loads with Ok but without its segment.", "quantifier": "every ELF file of either class and byte order, memory, kernel_offset and highmem", "why_tests_cant": "The files differ in every byte; a test shows single files, and a file with 65536 program headers is not in any test suite.", "anchors": ["src/loader/elf/mod.rs: Elf::validate_header", "src/loader/elf/mod.rs: Elf::load", "src/loader_gen/x86_64/elf.rs: Elf64_Ehdr, Elf64_Phdr"]}
{"id": "C97", "title": "The kernel's limit on the command line", "statement": "After a successful load_cmdline, a kernel that keeps at most `limit` bytes of its command line gets exactly the first `limit` bytes of the text that was built (boot parameters, ' -- ', init arguments), for every limit. It gets the complete text if and only if that has at most `limit` bytes. If the Cmdline was made with a capacity of at most limit + 1 (the NUL counts), then whatever builder calls follow, accepted or refused, the kernel gets the complete text, and its virtio-mmio driver registers exactly the devices the VMM added. The loader itself does not know the limit of the kernel: load_cmdline can succeed for a longer line, which the kernel then cuts, even inside a value.", "quantifier": "all guest addresses, command lines, guest memories, kernel limits, capacities and sequences of builder calls", "why_tests_cant": "A test checks lines of a few lengths against one limit; the claim is about every history of builder calls, every length, every limit and every address at which the line is stored.", "anchors": ["src/loader/mod.rs: load_cmdline", "src/cmdline/mod.rs: Cmdline::new, try_from, insert, insert_str, insert_multiple, insert_init_args, add_virtio_mmio_device, as_cstring"]}
{"id": "C98", "title": "Structures have no padding: nothing of the VMM's memory leaks, every byte string is a value", "statement": "For each type the crate declares ByteValued (setup_header, boot_params, the three ELF headers, the three PVH structures, the two PE image headers), followed down through nested structures and arrays to its integers: every combination of integers in range has exactly one memory image of the type's size, so no byte of the image is uninitialised memory of the VMM, and every byte string of that size is the image of a value, so that reading an image or guest memory into the type is sound whatever the bytes are. Hence what the Linux and PVH configurators write depends only on the integers of header, sections and modules. A repr(C, packed) structure or array of types without padding has none either, so a VMM's own packed types are safe too. Expected and refuted: that repr(C) is enough for a VMM's own type - u8 followed by u32 has 3 bytes of padding that reach the guest.", "quantifier": "every type with an unsafe impl ByteValued, all values and all byte strings, all addresses and guest memories, every packed structure of any depth and number of fields", "why_tests_cant": "A test compares the bytes of a few values; whether some other byte of a structure is uninitialised memory, or some byte pattern is no value, cannot be seen from any number of values (padding is often zero by chance).", "anchors": ["src/loader/mod.rs: unsafe impl ByteValued for setup_header, boot_params", "src/loader/elf/mod.rs: unsafe impl ByteValued for Elf64_Ehdr, Elf64_Nhdr, Elf64_Phdr", "src/configurator/x86_64/pvh.rs: unsafe impl ByteValued for hvm_start_info, hvm_memmap_table_entry, hvm_modlist_entry", "src/loader/pe/mod.rs: unsafe impl ByteValued for arm64_image_header, riscv64_image_header", "src/loader_gen/x86_64/bootparam.rs", "src/loader_gen/x86_64/start_info.rs", "src/loader_gen/x86_64/elf.rs", "src/configurator/mod.rs: BootParams::new, set_sections, set_modules"]}
{"id": "C99", "title": "The returned setup header tells what the kernel demands", "statement": "If the reader delivers the header of a bzImage in one piece and BzImage::load succeeds, then every field of the setup header except code32_start, and every group of bytes of it, has in the returned setup_header the value it has in the image at the offset the boot protocol documents. So the demands of the kernel (protocol version, initrd_addr_max, relocatable_kernel, kernel_alignment, xloadflags, cmdline_size with its default for old protocols, pref_address, init_size, setup_data) can be read off the returned header, whatever kernel_offset and highmem start were given. Without kernel_offset the kernel is put at an address that suits it. A VMM that makes the Cmdline with capacity cmdline_size + 1 from the returned header gets the complete line to the kernel of the image, whatever it adds. Expected and refuted: load refuses a kernel_offset that does not suit the kernel (not relocatable, or not aligned), and load makes sure that the memory the kernel demands (init_size) exists.", "quantifier": "all images, kernel offsets, highmem addresses, guest memories, readers without short reads, all fields by offset and width, all capacities taken from headers, all sequences of builder calls", "why_tests_cant": "A test looks at some fields of one image; that no field of any image is lost or shifted, and that a line built with the reported limit is never cut, is a statement about all images and all histories.", "anchors": ["src/loader/bzimage/mod.rs: BzImage::load", "src/loader/mod.rs: KernelLoaderResult::setup_header, load_cmdline", "src/loader_gen/x86_64/bootparam.rs: setup_header", "src/cmdline/mod.rs: Cmdline::new, as_cstring"]}
{"id": "C100", "title": "The memory image of an ELF program, uninitialised data included", "statement": "Call an ELF file's segments well-formed if no PT_LOAD segment has p_filesz > p_memsz and no two share memory. If Elf::load of such a file succeeds, every byte of a segment that comes from the file is in place (shifted by kernel_offset), and every byte of uninitialised data (behind p_filesz, up to p_memsz, segments without file contents included) is what guest memory held before. So the memory image the ELF specification defines, which has zeros there, is in place if and only if that memory was zero before; in fresh guest memory always. Expected and refuted: a successful load puts the memory image in place in any guest memory (uninitialised data is not cleared), and a successful load means that guest memory exists for all of the program's memory (only the part from the file is checked).", "quantifier": "every ELF file with well-formed segments, every number of segments, guest memory and contents, kernel_offset, high memory address and reader behaviour", "why_tests_cant": "Tests load into fresh zeroed memory, where missing initialisation cannot be seen, and look at a few addresses of one or two files.", "anchors": ["src/loader/elf/mod.rs: Elf::load", "src/loader_gen/x86_64/elf.rs: Elf64_Phdr"]}
{"id": "C101", "title": "Flags, kinds and bounds exported for the VMM", "statement": "Every flag constant exported for loadflags, xloadflags, ram_size, EDD, screen_info, p_flags and sh_flags is the bit the documents give it: for every value of the field, testing it tests that bit, setting and clearing it changes that bit only, and leaves every other exported flag of the field as it was. The exported kinds (setup_data types, PVH memory map types, ELF classes, byte orders, file, machine, segment, section and symbol types) have the documented values and are told apart; every integer constant exported has the number the documents give its name, under one name, and nothing undocumented is exported; each exported note type has an exported owner (GNU or CORE for the generic notes, LINUX for the others) and notes are told apart by name and type; ranges of extended segment types are disjoint and contain the exported types of their kind. For every index i, entry i of the zero page's memory map, disk and signature tables is inside its field iff i is below the exported maximum, and the exported offsets are those of the fields. An ELF image that is accepted has the exported magic number and byte order at the exported indices; a bzImage that is accepted has LOADED_HIGH set, also after the VMM has set any other load flag. (Assemblers put SHF_EXCLUDE and SHF_ORDERED in bits 31 and 30 of sh_flags; the exported constants, taken from Linux, are bits 27 and 26.)", "quantifier": "every field value, every pair of flags of a field, every setup_data type, segment type and table index, every accepted image", "why_tests_cant": "A test can compare a constant with a number; that setting one flag never disturbs another, for every value of the field, and that an index is valid exactly below the exported maximum, are statements about all values and indices.", "anchors": ["src/loader_gen/x86_64/bootparam.rs: LOADED_HIGH .. CAN_USE_HEAP, XLF_*, SETUP_*, EDD*, E820_MAX_ENTRIES_ZEROPAGE", "src/loader_gen/x86_64/start_info.rs: XEN_HVM_MEMMAP_TYPE_*", "src/loader_gen/x86_64/elf.rs: PT_*, ET_*, EM_*, SHT_*, SHF_*, STB_*, STT_*, EI_*, ELFMAG*, NN_*, NT_*", "src/loader/elf/mod.rs: Elf::validate_header", "src/loader/bzimage/mod.rs: BzImage::load"]}
{"id": "C102", "title": "Initial ramdisk, setup_data, modules and devices, as the guest finds them", "statement": "A VMM puts data of its own into guest memory between calls of the crate, in any order, all of it and the targets of the calls pairwise disjoint, and everything succeeds. Then a Linux guest that follows the pointers of the zero page finds the initial ramdisk (address and size in two halves each, also above 4 GiB), and a linked list of setup_data of any length, node by node; a PVH guest finds the contents of all modules and their command lines, in order. If the capacity of the command line was taken from the setup header the loader returned, the virtio-mmio driver of the kernel, which keeps as many bytes of its command line as its own image says, registers exactly the devices the VMM added. Expected and refuted: that success of all calls is enough - without disjointness a later call overwrites the ramdisk without an error.", "quantifier": "every sequence of calls and own writes on disjoint parts, every ramdisk, list of nodes, list of modules, history of insertions, image and memory layout", "why_tests_cant": "A test boots with one layout; the claim is about every order of calls, every layout and every number of nodes and modules, with everything read back through the pointers in guest memory.", "anchors": ["src/configurator/x86_64/linux.rs: LinuxBootConfigurator::write_bootparams", "src/configurator/x86_64/pvh.rs: PvhBootConfigurator::write_bootparams", "src/loader/mod.rs: load_cmdline", "src/loader/bzimage/mod.rs: BzImage::load", "src/loader_gen/x86_64/bootparam.rs: setup_header, boot_params", "src/loader_gen/x86_64/start_info.rs: hvm_modlist_entry"]}
{"id": "C103", "title": "Different ways to put the same bytes into guest memory agree", "statement": "load_dtb, the FDT configurator, the Linux configurator and a write_slice of the VMM itself: whichever of them succeed with the same bytes at the same address leave the same guest memory, namely the old one with exactly these bytes in place. The FDT and the Linux configurator accept the same bytes at the same addresses and have the same effect even when they fail. Compared with the VMM's own write, the configurators additionally want the byte behind the bytes to be mapped, and load_dtb, with a reader that works, wants at most 2 MiB; nothing else. load_cmdline of a line that can be rendered accepts the same places as the VMM's own write of its text and NUL, and leaves the same memory. Expected and refuted: load_dtb and the FDT configurator accept the same device trees (one that ends with the memory only the former, one of more than 2 MiB only the latter).", "quantifier": "all bytes, addresses, readers, command lines and guest memories", "why_tests_cant": "Tests compare a function with expected bytes at a few addresses; agreement of the functions is about every blob, address and memory layout, with the boundaries where they differ.", "anchors": ["src/configurator/fdt.rs: FdtBootConfigurator::write_bootparams", "src/configurator/x86_64/linux.rs: LinuxBootConfigurator::write_bootparams", "src/loader/pe/mod.rs: load_dtb", "src/loader/mod.rs: load_cmdline"]}
{"id": "C104", "title": "What the arguments of KernelLoader::load mean, for every loader", "statement": "For code generic over the loader. highmem_start_address is a filter and nothing else: with a higher bound a load does exactly what it does with a lower one or with none - same result, same memory, same use of the reader - or it fails with the error for images below the bound and has stored nothing; no bound is the bound 0; on a reader without faults the bound matters exactly for images whose start (ELF: e_entry, bzImage: code32_start, arm64/riscv64: nothing) is below it. Leaving out kernel_offset means code32_start for a bzImage and 0 for arm64 and riscv64 images; for an ELF image it means 0 for memory and addresses, but with an offset, even 0, notes are not read, so that no PVH entry point is reported and broken notes do not matter. A setup header is returned exactly for bzImages, a PVH capability other than ignored only for ELF images without offset; for bzImage and arm64/riscv64 everything stored lies in kernel_load..kernel_end, which is mapped.", "quantifier": "every loader, image, offset, pair of bounds, guest memory, and (for the filter) every behaviour of the reader", "why_tests_cant": "That a bound never changes what is loaded, only whether, is a statement about pairs of runs for all images, bounds and I/O behaviours.", "anchors": ["src/loader/mod.rs: KernelLoader::load, KernelLoaderResult", "src/loader/elf/mod.rs: Elf::load", "src/loader/bzimage/mod.rs: BzImage::load", "src/loader/pe/mod.rs: PE::load"]}
{"id": "C105", "title": "Every integer inside the zero page's structures is where the kernel's headers put it", "statement": "After the Linux configurator has written a boot_params value, the kernel finds every integer of the zero page - also inside screen_info, apm_bios_info, ist_info, sys_desc_table, olpc_ofw_header, efi_info and the setup header, and in every element of the arrays hd0_info, hd1_info, edid_info, edd_mbr_sig_buffer, e820_table and eddbuf, whatever the index - at the offset that zero-page.rst and the kernel's exported headers give, with the value that the field of that name has in the structure. Assigning to any of these fields (params.e820_table[i].size = x) changes for the guest exactly the bytes where the kernel looks for that field. Two boot_params values that differ in any field never look the same to the guest. Conversely the fields of the setup header that BzImage::load returns, accessed by name, are those of the image at their documented offsets, except for code32_start, which is the load address modulo 4 GiB.", "quantifier": "every boot_params value (all values of all nested fields and array elements), every field path, every index, every assignment, every address and guest memory; every bzImage", "why_tests_cant": "The tests set four fields of one value and never read guest memory at the documented offsets; a swapped pair of fields of the same size inside a nested structure passes every size assertion.", "anchors": ["src/loader_gen/x86_64/bootparam.rs: boot_params, screen_info, apm_bios_info, ist_info, efi_info, edd_info, edd_device_params, olpc_ofw_header, sys_desc_table, setup_header", "src/configurator/mod.rs: BootParams::new", "src/configurator/x86_64/linux.rs: write_bootparams", "src/loader/bzimage/mod.rs: load"]}
{"id": "C106", "title": "Exported headers read, changed and written back as bytes", "statement": "For each exported structure that can be read from and written as bytes (the arm64 and riscv64 Image headers, the three ELF headers, the three PVH structures, setup_header, boot_params): reading it from any bytes gives every field the value found at the field's documented offset, and the structure has exactly these bytes; writing it and reading it back gives it unchanged; reading it, assigning to one field and writing it back changes exactly the bytes of that field's documented place, to the assigned value modulo the field's width. So a VMM that reads the header of an image itself (fw_cfg, format detection) sees what the loader works with: for an image accepted by PE::load the magic number and the text_offset and image_size that determine kernel_load; for an image accepted by Elf::load the entry point that determines kernel_load and, reading e_phnum headers of 56 bytes from e_phoff on, the program headers whose segments are loaded.", "quantifier": "every exported ByteValued structure and every integer in it, every byte string, every value, every assigned number; every image accepted by a loader with every argument and reader behaviour", "why_tests_cant": "The tests read and write a few constant values; that the public types agree with the loader's own view of every image is a statement about all byte strings.", "anchors": ["src/loader/pe/mod.rs: arm64_image_header, riscv64_image_header", "src/loader_gen/x86_64/elf.rs: Elf64_Ehdr, Elf64_Phdr, Elf64_Nhdr", "src/loader_gen/x86_64/start_info.rs", "src/loader_gen/x86_64/bootparam.rs", "src/loader/elf/mod.rs: load", "src/loader/mod.rs: ByteValued impls"]}
{"id": "C107", "title": "A failing call leaves a beginning of its output behind", "statement": "Every loader and configurator stores what it has to store in a fixed order, each piece from its first byte on. Whatever Elf::load, BzImage::load, PE::load, load_dtb, load_cmdline or a write_bootparams returns, and whatever I/O errors and short reads its reader comes up with, guest memory afterwards is the old memory with a beginning of the call's output on it: the first k pieces completely, j bytes of the next one, nothing of the later ones, and nothing else changed. Without reader faults a piece is cut off only at unmapped memory. The same holds of a whole sequence of calls that stops at the first failure. Without reader faults k and j are given exactly: for Elf::load by the first program header with an obstacle, for the other calls by the error they return. (Conditions: transfers do not misplace bytes, see C70; the header of a bzImage without kernel_offset is read in one piece, see C57; ELF images are smaller than isize::MAX.)", "quantifier": "all images, memory layouts and contents, option values, boot parameters, command lines, reader fault schedules, and all sequences of such calls", "why_tests_cant": "a test sees one failure at one point; the claim is about every point at which a call can stop, for every image and memory layout, and about every sequence of calls", "anchors": ["src/loader/elf/mod.rs: Elf::load", "src/loader/bzimage/mod.rs: BzImage::load", "src/loader/pe/mod.rs: PE::load, load_dtb", "src/loader/mod.rs: load_cmdline", "src/configurator/x86_64/linux.rs: write_bootparams", "src/configurator/x86_64/pvh.rs: write_bootparams", "src/configurator/fdt.rs: write_bootparams"]}
{"id": "C108", "title": "Trying again after failures leaves no trace of them", "statement": "A VMM whose boot sequence fails (I/O errors of an image reader, at any operation, after any number of bytes, even with bytes put at wrong addresses within the target as in C70) may try again with fresh readers of the same images: after any number of attempts, each making some of the calls of the sequence in any order up to its first failure, the sequence of calls has the outcome it would have had without the attempts, and if it succeeds guest memory is, at every address, exactly what it would have been without them. The same holds when each call is tried until it succeeds instead of starting from the beginning. (Exception: an attempt at BzImage::load without kernel_offset whose reader delivers the setup header short, see C57, can leave bytes elsewhere that stay.)", "quantifier": "all sequences of loader, load_cmdline, load_dtb and write_bootparams calls and own writes of the VMM, all numbers of attempts and tries, all fault schedules, all memory layouts and contents", "why_tests_cant": "a test tries one failure and one retry; the claim is about every place where an attempt can fail, any number of attempts, and every address of guest memory", "anchors": ["src/loader/elf/mod.rs: Elf::load", "src/loader/bzimage/mod.rs: BzImage::load", "src/loader/pe/mod.rs: PE::load, load_dtb", "src/loader/mod.rs: load_cmdline", "src/configurator/x86_64/linux.rs: write_bootparams", "src/configurator/x86_64/pvh.rs: write_bootparams", "src/configurator/fdt.rs: write_bootparams"]}
{"id": "C109", "title": "Where the reader stands after a call", "statement": "A VMM may go on using the reader it has passed to a loader. When BzImage::load, PE::load or load_dtb has succeeded, the image is unchanged and the reader stands at its end. When Elf::load has succeeded, the image is unchanged and the reader stands behind the last segment in program header order that was loaded or (without kernel_offset) searched for notes, and behind the program header table if there is no such segment: behind the file contents of a loaded segment; directly behind the PVH entry point for a note segment in which one was found; where the next note would begin, at or behind the end of the segment, for a note segment without one. This position depends on nothing but the image and whether kernel_offset is given.", "quantifier": "all images, arguments, readers (initial positions, fault and short read schedules) and guest memories for which the call succeeds", "why_tests_cant": "the position depends on the program headers and notes of the image in unboundedly many ways; the tests of the crate never look at the reader again", "anchors": ["src/loader/elf/mod.rs: Elf::load, parse_elf_note", "src/loader/bzimage/mod.rs: BzImage::load", "src/loader/pe/mod.rs: PE::load, load_dtb"]}
{"id": "C110", "title": "Features and architectures", "statement": "For every set of crate features that a VMM asks Cargo for (elf, bzimage, pe, in any combination, also none) and every target architecture: nothing that is compiled refers to an item that is not (modules, types, fields, error variants, conversions, ByteValued implementations). Cmdline, load_cmdline and KernelLoader are always there; Elf and the Linux and PVH configurators exactly on x86/x86_64 with some feature; BzImage exactly on x86/x86_64 with bzimage; PE and load_dtb exactly on aarch64/riscv64 with pe; the FDT configurator exactly on aarch64/riscv64 with some feature; BootParams with some feature; setup_header in the load result exactly on x86/x86_64, pvh_boot_cap there with some feature. The error enumerations and the matches over them have the same variants. The PE loader reads one kind of header. Features are additive: asking for more takes nothing away; but a match of the VMM over all variants of loader::Error, or a literal of KernelLoaderResult, can stop compiling (refuted), and the sources need the implications of Cargo.toml (refuted without them).", "quantifier": "all sets of features, all target architectures, all items of the crate that carry or depend on a cfg attribute", "why_tests_cant": "a test run is compiled for one configuration; in another one the test itself may not exist", "anchors": ["Cargo.toml: [features]", "src/lib.rs", "src/loader/mod.rs: Error, KernelLoaderResult, modules", "src/configurator/mod.rs: Error, modules", "src/configurator/x86_64/pvh.rs", "src/loader_gen/x86_64/mod.rs", "src/loader/pe/mod.rs"]}
{"id": "C111", "title": "What {:?} shows in a log", "statement": "{:?} of a Cmdline, of an error, of a load result and of the exported structures tells everything about the value: two command lines give the same text exactly if boot arguments, init arguments and capacity are the same (so it is finer than ==, C17, C18); two errors of the loaders, of the configurators (whose Display does not tell them apart, C65) or of the command line builder, two values of an exported structure (with everything nested in it) and two results of successful loads (with every field of the setup header) only if they are the same. Every integer field of a structure, also of nested structures and of structures in arrays, stands in the text with its name and its value in decimal. A command line put together with the builder is shown as it is, with a backslash before each double quote and backslash. The text stays on one line and cannot control a terminal, also for a command line parsed from an arbitrary string (C08): apart from printable ASCII it has only characters of the strings that are printable according to the Unicode tables of std.", "quantifier": "all command lines (built or parsed), all errors, all values of all exported structures, all results of successful loads, all Unicode tables of std for characters that are not ASCII", "why_tests_cant": "Strings, capacities, addresses and header fields are unbounded; that no two values share a text is a statement about all pairs.", "anchors": ["src/cmdline/mod.rs:20-44 derive(Debug) Error", "src/cmdline/mod.rs:145-150 derive(Debug) Cmdline", "src/loader/mod.rs:49-74 derive(Debug) Error", "src/loader/mod.rs:146-162 derive(Debug) KernelLoaderResult", "src/loader/elf/mod.rs:40, 109 derive(Debug)", "src/configurator/mod.rs:37 derive(Debug) Error", "src/loader_gen/x86_64/bootparam.rs derive(Debug)", "src/loader_gen/x86_64/start_info.rs derive(Debug)"]}
{"id": "C112", "title": "Big-endian hosts", "statement": "PE::load, the only loader that exists on targets of either byte order (aarch64 and aarch64_be), does the same on both: the same result, the same error or none, the same effect on guest memory and on the reader, for every image. In the exported Image headers a field read as bytes and converted with from_le has the number that the documented little-endian bytes mean, and a number converted with to_le and stored in a field is written as these bytes, on hosts of either byte order; without the conversion a VMM on a big-endian host sees other numbers (0x41524d64 instead of the arm64 magic number) in the header of every accepted image.", "quantifier": "all byte orders, images, arguments, guest memories and reader behaviours; all header bytes, offsets, widths and numbers", "why_tests_cant": "The tests run on little-endian hosts, where from_le does nothing; the images and header contents are unbounded.", "anchors": ["src/loader/pe/mod.rs:81-92 arm64_image_header", "src/loader/pe/mod.rs:105-117 riscv64_image_header", "src/loader/pe/mod.rs:136-207 PE::load"]}
{"id": "C113", "title": "Panics of the caller's reader or guest memory", "statement": "The reader and the guest memory are code of the caller and may panic. If the reader panics at some request, the loader panics, makes no further request, and the requests made and the contents of guest memory are those of the same call with a reader that returns an error at this request (and has stored the same part of the transfer); a loader that does not reach such a request is not affected. So what is known of guest memory after a failed load is known after a caught panic. load_cmdline and write_bootparams with a guest memory that panics do what they do otherwise, up to the first request at which it panics, and nothing after it: no panic is swallowed, no request is repeated, nothing is undone.", "quantifier": "all readers and guest memories, panicking at any requests depending on the history so far; all arguments and guest memory contents; all command lines and boot parameters", "why_tests_cant": "Every request of every call with every reader can be the one that panics; no test of the crate has a panicking reader or memory.", "anchors": ["src/loader/elf/mod.rs:203-300 Elf::load", "src/loader/bzimage/mod.rs:105-184 BzImage::load", "src/loader/pe/mod.rs:136-207 PE::load", "src/loader/pe/mod.rs:218-236 load_dtb", "src/loader/mod.rs:222-250 load_cmdline", "src/configurator/x86_64/linux.rs:98-112", "src/configurator/x86_64/pvh.rs:146-181", "src/configurator/fdt.rs:80-92"]}
{"id": "C114", "title": "The specifications of loaders and configurators are complete", "statement": "For each call that writes to guest memory (Elf::load, BzImage::load, PE::load, load_dtb, load_cmdline, the Linux, PVH and FDT write_bootparams) there is a specification in terms of image or data, arguments and guest memory alone: the obstacles in the order in which they are reported, the value returned if there is none, the pieces that are then in memory, and what is left behind after each error. The call meets it, and nothing else does: a result and a memory meet the specification exactly if they are the result of the call and the memory it leaves. So a program that differs from the crate in any result, error or byte of guest memory, for any input, violates it.", "quantifier": "all images below isize::MAX bytes on readers without faults, all arguments, guest memories, command lines and boot parameters; all candidate results and memories", "why_tests_cant": "Completeness says something about all wrong results for all inputs; a test compares single results with single expectations.", "anchors": ["src/loader/elf/mod.rs:203-300 Elf::load", "src/loader/bzimage/mod.rs:105-184 BzImage::load", "src/loader/pe/mod.rs:136-207 PE::load", "src/loader/pe/mod.rs:218-236 load_dtb", "src/loader/mod.rs:222-250 load_cmdline", "src/configurator/x86_64/linux.rs:98-112", "src/configurator/x86_64/pvh.rs:146-181", "src/configurator/fdt.rs:80-92"]}
{"id": "C115", "title": "The specifications of the builder and of boot parameter lists are complete", "statement": "For each call of the command line builder (insert, insert_multiple, insert_str, insert_init_args, add_virtio_mmio_device), for new, try_from and as_cstring, and for set_sections, add_section, set_modules and add_module there is a specification in terms of the arguments and the old state alone: the obstacles in the order in which they are reported, what the call changes if there is none, and that it changes nothing otherwise. The call meets it, and nothing else does: a result and a new state meet the specification exactly if they are those of the call. The same for whole histories: a list of results and a final command line (or final boot parameters) meet the specification exactly if they are those of the sequence of calls.", "quantifier": "all reachable command lines and boot parameters, all arguments (elements below isize::MAX bytes), all sequences of calls; all candidate results and states", "why_tests_cant": "Completeness says something about all wrong results for all inputs and histories; a test compares single results with single expectations.", "anchors": ["src/cmdline/mod.rs:194-211 new", "src/cmdline/mod.rs:226-251 insert", "src/cmdline/mod.rs:265-301 insert_multiple", "src/cmdline/mod.rs:317-431 insert_str, insert_init_args, as_cstring", "src/cmdline/mod.rs:add_virtio_mmio_device, try_from", "src/configurator/mod.rs:166-421 BootParams"]}
{"id": "C116", "title": "The specification of a boot sequence is complete", "statement": "A VMM prepares a guest with a sequence of calls (loaders, load_dtb, load_cmdline, configurators, its own write_slice) on one guest memory and stops at the first failure. There is a specification of such a sequence in terms of images, data, arguments and the memory at the beginning alone: what every call made returns, with all fields of the result or the very error, and every byte of guest memory at the end. The sequence meets it, and nothing else does: a list of results and a final memory meet the specification exactly if they are those of the sequence.", "quantifier": "all finite sequences of calls in any order, with readers without faults, ELF images below isize::MAX bytes, all arguments, all guest memories with a mapped address; all candidate lists of results and memories", "why_tests_cant": "There are infinitely many sequences, and completeness says something about all wrong results; a test compares single results of one sequence with single expectations.", "anchors": ["src/loader/elf/mod.rs:203-300 Elf::load", "src/loader/bzimage/mod.rs:105-184 BzImage::load", "src/loader/pe/mod.rs:136-236 PE::load, load_dtb", "src/loader/mod.rs:222-250 load_cmdline", "src/configurator/x86_64/linux.rs:98-112", "src/configurator/x86_64/pvh.rs:146-181", "src/configurator/fdt.rs:80-92"]}
