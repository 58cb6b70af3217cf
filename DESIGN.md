# Formal model of rust-vmm/linux-loader in Lean 4

(First version committed before the proofs; updated as the model grew.)

## 1. Layout

| Directory / file | Content |
|---|---|
| `lean/Verif/Model/*.lean` | The model: one definition per Rust function, each with a comment citing file and lines in `/repo`, and naming the simplification if there is one. |
| `lean/Verif/Spec/*.lean` | Small specifications that do not mention the model's helpers: kernel tokeniser, virtio grammar, ELF note encoding, "memory overwritten by bytes", documented structure offsets. |
| `lean/Verif/Lemmas/*.lean` | Helper lemmas. |
| `lean/Verif/Props/*.lean` | The property theorems, `Cxx_...`, with an `example` meeting the hypotheses beside each. |
| `lean/Verif/Tests/*.lean` | Tests, not proofs: the repository's own unit tests (all of cmdline, loader, elf, pe, configurators; the bzImage test with a downloaded image excepted) and its doc example, replayed on the model by kernel evaluation with the repository's own `.bin` images. They are evidence that the model is the code; no property rests on them. |
| `properties.jsonl` | The properties in English. |
| `MANIFEST.json` | Property → theorems. |
| `diff/` | A test, not a proof: the Rust code written a second time in Python (`port.py`), compared with the model (`Drv.lean.txt`, run by the interpreter) on random inputs; 27 000 inputs over nine seeds, no difference. |
| `seeded/LOG.jsonl` | Wrong programs tried against the theorems. |

## 2. What is modelled, and how

* **Target.** 64-bit `usize`, little-endian (`x86_64`, `aarch64`, `riscv64`); for big-endian hosts see C112. `/repo` also has
  `target_arch = "x86"` attributes; vm-memory does not build on 32-bit targets, so this is not modelled.
* **Strings** are `List Char` (a Lean `Char` is a Unicode scalar value, like a Rust `char`);
  `str::len` is the UTF-8 length. `str::trim` uses the Unicode White_Space set. `Model/ByteStr.lean` is the same
  code over UTF-8 bytes, with slicing by byte index; C82 proves both agree.
* **Integers**: `u64`/`usize`/`GuestAddress` arguments are `UInt64`/`UInt32`; values read from an image and
  lengths are `Nat` (bounded by how they are read). `checked_*` operations return `Option`; an unchecked
  `+` that would overflow is the explicit outcome `panic`. `Model/Release.lean` is the same code with
  wrapping additions, and C69 proves both agree.
* **Results**: `Res ε α = ok a | err e | panic`. A `&mut self` method returns the new value *and* the result,
  so "unchanged on error" is a theorem, not a convention.
* **Allocation**: a Rust allocation has at most `isize::MAX` bytes (`ISZ`); a `Vec::resize` beyond it panics in
  the model (C26). Running out of memory below that is not modelled.
* **Guest memory** (`vm_memory::GuestMemoryBackend` 0.18, a dependency, not in `/repo`): a list of regions and a
  byte per address. `write_slice`, `read_exact_volatile_from`, `checked_offset` and `last_addr` follow their
  documented behaviour (a prefix up to the first unmapped address is transferred, then an error is returned).
  Zero-length accesses at unmapped addresses differ between vm-memory versions, so this is a parameter
  (`emptyOk`) of the model, and theorems hold for both values. C70 and C71 derive this contract from
  step-by-step models of the loops in std and vm-memory.
* **Image readers** (`F: Read + ReadVolatile + Seek`): an in-memory cursor together with an arbitrary
  *I/O schedule* saying which operation fails (possibly after a partial transfer) or is cut short.
  Theorems quantify over all schedules unless they say "fault-free" or "no short reads". C85 has readers that answer
  every request as they like.
* **Loaders and configurators** are written in a state-and-exception monad over (reader, guest memory); memory
  changes made before an error persist.
* **Structures** (`loader_gen`, generated by bindgen): field lists with sizes and alignments; the C layout
  algorithm is a function, and its result is compared with the documented offsets (C56, C63).
* **The kernel's side** (only in `Spec/`, used to state C12, C13, C41, C58, C63): `parse_args`/`next_arg`,
  the `virtio_mmio.device=` grammar, the ELF note format, `boot.rst`/`zero-page.rst`/`start_info.h` offsets.
  `isspace` is taken for ASCII.

| Source | Modelled in |
|---|---|
| `src/cmdline/mod.rs` | `Model/Cmdline.lean` (all functions), `Model/ByteStr.lean`, `Model/AsRef.lean` (impure arguments), `Model/Display.lean` (messages), `Model/Debug.lean` (`{:?}`) |
| `src/loader/mod.rs` | `Model/LoadCmdline.lean`, `Model/Display.lean`; result type in `Model/Elf.lean` |
| `src/loader/elf/mod.rs` | `Model/Elf.lean`, `Model/Release.lean` |
| `src/loader/bzimage/mod.rs` | `Model/BzImage.lean` |
| `src/loader/pe/mod.rs` | `Model/Pe.lean` (both architectures), `Model/ByteOrder.lean` (big-endian hosts) |
| `src/configurator/mod.rs`, `x86_64/linux.rs`, `x86_64/pvh.rs`, `fdt.rs` | `Model/BootParams.lean`, `Model/Release.lean`, `Model/Display.lean` |
| `#[cfg]` attributes of all sources, features of `Cargo.toml` | `Model/Cfg.lean` |
| `src/loader_gen/**` | `Model/Layout.lean`, `Model/Bytes.lean`, `Model/ZeroPage.lean`, `Model/LoaderGen.lean`, `Model/Types.lean`, `Model/ElfTypes.lean`, `Model/Values.lean`, `Model/Constants.lean` |
| std / vm-memory operations used | `Model/Basic.lean`, `Model/GuestMem.lean`, `Model/Reader.lean`, `Model/RawIo.lean`, `Model/IoLoaders.lean`, `Model/Trace.lean`, `Model/RegionWalk.lean`, `Model/AnyReader.lean`, `Model/AnyMem.lean`, `Model/Panicking.lean` |

Not modelled: `Clone` and `{:#?}` (derived; a clone has the same fields); documentation; benches; the real `vm_memory` mmap code. Sharing of a reader
or a `Cmdline` between threads is excluded by Rust (`&mut`); guest memory is shared (C83).

## 3. Proof plan per property

C01–C03 invariant (`rendered size ≤ capacity`) by induction over call histories.
C04, C05, C09–C11, C15 exact decision logic: case analysis.
C06 induction over histories against the spec "join of the accepted slugs".
C07 invariant (all characters printable). C08 refuted by witness, exact cases proved.
C12, C58 spec: the kernel's `next_arg`/`parse_args` as a function on strings; composition lemma for balanced
arguments, then induction over the history; per-argument necessary and sufficient condition; refuted in general
by witnesses.
C13 spec: a parser for the virtio grammar and the text written out (`deviceText`); digits round trip.
C14 spec: least index with the separator and an even number of quotes before it.
C16 from C14 (refuted for tabs). C17, C18 algebra and witnesses.
C19–C21 from the guest memory contract.
C22, C23 refinement: buffer against the abstract map "last write wins"; induction over additions.
C24–C27 case analysis; witnesses for C25, C26.
C28–C33 from the memory contract. C34 struct encoders with decode∘encode = id.
C35–C45 inversion of the monadic program for `ok` outcomes; frame predicate closed under bind for C44;
loop invariants for program headers and notes; C40 also needs the termination measure of the note loop.
C41 spec: encoder from a list of notes to bytes; induction over the list.
C43 relational proof over the segment list.
C46–C54, C57 the same for bzImage, PE, DTB. C55 composition of the frame theorems over a list of calls.
C56 layout algorithm of `repr(C)`/`repr(C, packed)` evaluated on the field tables (a finite table: the whole
domain is computed by the kernel), plus a general theorem that laid-out fields never overlap.
C59, C60 case analysis on the acceptance condition. C61 bit arithmetic. C62 an independent "first obstacle"
specification, proved equal to the outcome by induction over the program headers.
C63, C64 encode by layout, read at the documented offsets. C65 injectivity of message functions; the full
texts against tables extracted from the source (Verif/Spec/Messages.lean).
C66–C68 a "write tracking" predicate closed under bind: every computation is "overwrite by a partial function
that depends on the reader and the layout only"; the three properties follow from it.
C69 agreement predicate closed under bind, using C40 and C03 (no overflow is reached).
C70 refinement of `read_exact` and `read_exact_volatile` loops over arbitrary short reads, interruptions and
errors: each run equals one step of the contract under some I/O event.
C71 refinement of the region-by-region loops of vm-memory.
C72 algebra of insertions.
C73, C74 composition of C12, C55, C63, C64, C34: a spec of how the starting guest follows the pointers.
C75 a cost predicate closed under bind; for the note loop the bound uses that each round consumes 12 bytes; bytes stored: a Hoare-style predicate over the recorded run (Model/Trace.lean) with an upper bound and the exact number on success;
exact count for a family of images that reaches the order of the bound.
C76 bit arithmetic. C77 from C63 and the layouts; equality by injectivity of the encoding.
C78 spec: the linker's direction (`Spec/Build.lean`), from C62, C54: the fields of the encoded headers are read back.
C79 composition of C54, C31, C34 over sequences of calls (as C73). C80 from the exact results of the loads.
C81 rejection before the first write (C46, C52, header validation) and a relation "same events from now on".
C82 a second model of the command line over bytes (`Model/ByteStr.lean`), related to the first by the encoding;
decode after encode from both ends, ASCII bytes occur only as ASCII characters, boundaries of slices.
C83 the loaders over operations that record what they store, with an environment that changes memory before each
(`Model/Trace.lean`): the record is independent of both (predicate closed under bind). Interleavings: the stores
to one address come from one thread, so their order is that thread's.
C84 relational proof: each operation on two images that agree on what it reads gives the same outcome and state;
composed along the loaders, with the reader position tracked through the note loop; witnesses for the refuted parts
and for tightness.
C85 the loaders over an arbitrary oracle (`Model/AnyReader.lean`): a record of requests and answers, Hoare-style rules
for one request closed under bind; results and frame are read off the record; files are embedded by replaying.
C86 the same oracle, and one for guest memory (`Model/AnyMem.lean`): "the log has no failure, or its last entry is one and is
named by the error" is closed under bind.
C87 composes C22 (the lists are sparse images of the accepted pieces) with C31/C32 (what the PVH configurator writes, and when
it refuses) through `Spec/Incremental.lean`: a list occupies the span of its pieces; later pieces win.
C88 from C78: acceptance and result are functions of entry point, memory image, highest end and notes
(`Spec/SameProgram.lean`); permutation and division of segments leave these unchanged; witnesses for the refuted part.
C89 the complete image is the truncated one with bytes appended (C84); the exact outcome (C62, C54, C46, C52) of the truncated
image, whose fields are those of the complete one where present; the accepted truncations are counterexamples.
C90 the last piece covering the entry point (C35), C47, C51; witnesses for the refuted parts.
C91 the builder calls over an oracle for `as_ref` (`Model/AsRef.lean`); every step is a step with fixed strings or changes
nothing, then induction over histories.
C92 buffer sizes read off the record of requests to an arbitrary reader (`Spec/HostMemory.lean`), a bound carried through the
loaders' sequencing; lists from C22, command lines from C01.
C93 the driver's `vm_cmdline_set` with its `sscanf` format (`Spec/VirtioDriver.lean`) on the parameters of C12; induction over
the history.
C94 how `parse_args` goes on behind a balanced text followed by white space (with and without having met `--`), by induction on
the length; then C14 (the split) and C06 (insertions).
C95 induction over the calls: each is accepted iff the extended line fits (C04, C05, C10, C11, C13); a line that fits has prefixes
that fit.
* C96 ELF files of every kind: an independent reading of program headers by class, byte order, entry size and extended numbering (Spec/ElfKinds.lean); compared with what C35-C37 and C62 say of the loader. The refutation of extended numbering is a file with 65536 program headers, handled symbolically (65535 null headers).
* C97 The kernel's limit on the command line. The memory after `load_cmdline` (C19) is read by `cstr` with a limit; induction over the stored bytes gives the first `limit` bytes. The capacity invariant (C01) gives the sufficient condition for all histories; C12 and C93 give what the kernel's driver registers. That the limit is checked is refuted by a line of 256 bytes for a kernel that keeps 255.
* C98 No padding. The types are modelled as trees (integers, arrays, structures with a cap on field alignment) with the `repr(C)` layout rules of C56; `Spec/Padding.lean` says what a memory image is, leaving bytes that belong to no integer unspecified. For each type of the crate the integers tile it without gaps (a computation over the finite type description); that tiling gives exactly one image for all values is proved by induction over the tiling, and that packed structures and arrays tile, by induction over fields and elements.
* C99 (returned header tells the demands): the documented fields, read through an abstract accessor by absolute offset, once in the image and once in the returned header (Spec/SetupHeader.lean); equality of all fields but code32_start from C48 by congruence of byte lists; command line through C97; two refutations on concrete images.
* C100 (memory image with uninitialised data): Spec/MemImage.lean gives the ELF specification's memory image; from C35 (last piece wins) and uniqueness of the covering segment; two refutations on concrete files.
* C101 (exported constants): the constants as a table generated from the source, compared with documented bit numbers and values (finite tables, computed by the kernel); independence of flags for all field values by bitwise extensionality; bounds for all indices by arithmetic; accepted images from C36 and C46.
* C102 `BootStep` gets a step for the VMM's own writes (`own`), so that all theorems about sequences of calls cover it; the guest's way through `ramdisk_image`, `setup_data` and the module list is a function on memory; disjointness from C55; induction over the list of nodes.
* C103 acceptance conditions of C20, C29, C30, C53 compared; effects are all `Stored`, which determines memory; refuted by a blob at the end of memory and one of 2 MiB + 1 byte.
* C104 relational: two runs with different bounds agree up to the check (a relation closed under bind with a head that stores nothing); the rest from C37, C42, C47, C51, C54, C62.
* C105 (integers at any depth of the zero page): values of the types of Model/Types.lean as nested products and functions, memory image and its inverse by recursion over the type; induction over the access path gives the place of an integer in the image for every value; the documented table is compared with these places by kernel computation, arrays for every index by an append lemma on paths.
* C106 (headers as bytes): structures without gaps are read and written inversely, by mutual induction over types and fields; what a path reads and what an assignment changes from C105's lemmas; the documented places by kernel computation; the loaders' view from C36, C37, C51, C52.
* C107: model as for C44/C55; spec: a list of pieces and its beginnings; proof: each call is a chain of stores, quiet steps leave memory alone, a transfer stores a prefix; induction over program headers and over the sequence of calls.
* C108: model as for C55/C66; proof: attempts change only targets of the calls, a successful call fills its whole target (for ELF: because the file is long enough), and outcomes do not depend on memory contents.
* C109: model as for C35/C47/C51/C53 (the reader's position is part of the state); proof: inversion of successful runs, invariant of the note loop: the position is the segment's offset plus the bytes read.
* C110: cfg attributes as conditions on a configuration; closure and availability by computation over the whole (finite) space of configurations and items, additivity by induction over conditions (there is no negation); witnesses for the refuted parts.
* C111: derived `Debug` as functions to strings (also of the ELF structures that are only exported, `Model/ElfTypes.lean`), with the escapes of std over arbitrary Unicode tables; proof: each way of writing is a code (value and remaining text can be read back), closed under fields, tuples, structures, arrays; induction over types; the rest by cases.
* C112: `PE::load` once more with header fields in the byte order of the host and `from_le`; proof: swapping the bytes of a big-endian number gives the little-endian one (induction over the bytes), the header has 64 bytes when it was read.
* C113: operations that may panic beside those that fail; proof: a relation between the two runs (same so far; or error against panic after the same requests), closed under sequencing, through all loaders, by induction over notes and program headers; for guest memory the run is cut at the first panic.
* C114: a relation between input and (result, memory) per call; proof: the call satisfies it by C20, C28-C32, C35-C37, C42, C46-C54, C62, C107; it has one solution because there is exactly one first obstacle, the value is determined field by field (maximum, last note, bytes of the header), and memory is determined by the pieces on it and the first unmapped address.
* C115: a relation between old state, call, result and new state per call, with the ordered obstacles of C114; proof: the call satisfies it by C04, C05, C09-C11, C13-C15, C23, C24; it has one solution because there is exactly one first obstacle; histories by induction on the calls.
* C116: an inductive relation between memory, calls, results and final memory, made of the relations of C114; proof: C114 for each call, induction on the sequence; the memory layout, and with it well-formedness and the last address, is kept by every call.

No property is outside what a model can express. Only assumed: the behaviour of the real `vm_memory` crate and
of std beyond C70/C71, of the allocator; that stores to one address take effect in one order (C83).

## 4. Findings (properties one would expect and that are refuted by theorems)

C08 `try_from` does not validate characters (NUL accepted, rendering then fails). C12/C58 accepted keys or values
that the kernel tokenises differently (quotes in keys, single quote character values, empty key). C16 tabs around
` -- `. C18 equality ignores where init arguments start. C25 a failed first `add_module` leaves an empty list that
makes PVH fail. C26 `add_section` panics for addresses far above the start. C29 a header ending exactly at the end
of a region is rejected. C33 PVH writes the memory map before checking the start info. C38 `kernel_end` may be
below what was written; bss-only segments are not counted. C42 only the last PT_NOTE counts. C49 `code32_start`
truncated to 32 bits. C50 the high memory check ignores `kernel_offset`. C44/C70 with
`get_slices` a short read at a region boundary leaves bytes at wrong addresses (the load fails). C44/C57 a short read of the bzImage header
goes unnoticed. C61 the "cannot overflow" comment of `align_up` is false for addresses in the last unit. C65 the
configurator's message alone names only the protocol. C75 the number of reader operations of an ELF load is
quadratic in the size of the image in the worst case (program headers sharing one note segment of empty notes), and so is the number of bytes stored (program headers sharing one loadable segment). C79 no check
that a device tree is 8-byte aligned; the FDT configurator does not check the 2 MiB limit. C80 `kernel_end` ignores
uninitialised data (`image_size`, `init_size`), so the memory behind it is not free for a device tree or initrd. C83 concurrent calls
with common targets can all succeed and leave a mixture. C84 `Elf::load` checks neither class, type nor machine; a note
straddling the end of its segment is read from behind the segment. C85 `PE::load` fetches the header twice (what is checked need
not be what is loaded when the file changes); a reader claiming data at 2^64-1 panics `Elf::load` (overflow checks on); a device
of zeroes is read for p_filesz / 12 notes. C88 the order of overlapping segments and of several note segments matters.
C89 truncated bzImage, PE and device tree images are accepted. C90 entry points are not checked to be
loaded or mapped. C91 `insert_multiple` calls `as_ref` twice per value. C92 an element at
a distant address allocates the whole gap. C93 a device with interrupt 0 is accepted and ignored by Linux; ids of 2^31 or
more become negative, and automatic ids can clash with given ones. C94 `try_from` removes white
space behind an unmatched quote and Unicode white space, which the kernel keeps; a `--` between tabs is not seen. C96 `Elf::load` takes
`e_phnum = PN_XNUM` literally: of a file with more than 65535 program headers only the first 65535 are loaded; a crafted
32-bit file is accepted without its segments. C97 `load_cmdline` does not know how many bytes of command line the kernel keeps (`cmdline_size` of the setup header): a longer line is stored without an error and cut by the kernel, possibly inside a value (`root=sda12` becomes `root=sda1`); a VMM must choose the capacity of the `Cmdline` accordingly. C98 a `repr(C)` header, section or module type of the VMM's own can have padding, whose uninitialised bytes `BootParams` then passes to the guest; no type of the crate has any. C99 BzImage::load accepts a kernel_offset for a kernel that is not relocatable or at an address without the kernel's alignment, and does not check that init_size bytes are mapped. C100 Elf::load neither clears uninitialised data nor checks that guest memory exists for it. C101 `SHF_EXCLUDE` and `SHF_ORDERED` are not the bits assemblers use (inherited from Linux). C102: nothing in the crate keeps its writes away from the VMM's own data; disjointness is the VMM's duty. C103: a device tree that ends at the last byte of memory is accepted by load_dtb but not by the FDT configurator; one of more than 2 MiB the other way round. C104 `kernel_offset = Some(0)` differs from `None` for ELF images (PVH notes are not read). C110 `loader::Error` and `KernelLoaderResult` get more variants and fields with more features and are not `#[non_exhaustive]`: exhaustive matches of a VMM can break when another crate asks for another feature. C112 the fields of the exported Image headers are in the byte order of the file, not of the host: a VMM on a big-endian host must convert them.

## 5. Trusted base

* Lean 4.33.0's kernel. No gaps in proofs, no compiled evaluation; closed computations use `decide +kernel`.
* Axioms: at most `propext`, `Classical.choice`, `Quot.sound`. Per theorem: `AXIOMS.txt` (output of
  `#print axioms` for every theorem in the manifest). No axioms of our own.
* The reading of `/repo` recorded in the comments of `Model/`, supported by `Tests/`.
* The contract of `vm_memory` and `std` stated in `Model/GuestMem.lean`, `Model/Reader.lean`, `Model/Cmdline.lean`
  (`str::trim`, `CString::new`, `match_indices`, `format!`) and `Model/BootParams.lean` (`Vec::resize`, `splice`).
* The transcription of the kernel's documents in `Spec/`.
