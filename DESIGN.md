# A Lean model of MshIO

This directory holds a machine-checked model of the C++ library `qnzhou/MshIO` (source in `/repo`)
and proofs about it.  Properties are listed in `properties.jsonl`, their status in `MANIFEST.json`.

## Trusted base

* Lean 4.33.0's kernel.  No axioms are added; no `sorry`, `native_decide`, `bv_decide`.  Theorems
  depend on at most `propext`, `Classical.choice`, `Quot.sound` (listed by `#print axioms`).
* That the definitions in `lean/Verif/Model` describe the C++ code.  They were written by reading
  `/repo`; every definition cites the lines it models.  The code was neither built nor run.
* That the stream operations in `Model/IStream.lean`, `Model/OStream.lean` and the number
  conversions in `Model/Dbl.lean`, `Model/Num.lean` describe libstdc++ 13 / glibc in the "C" locale.
  These primitives (not MshIO) were compared with the installed standard library on 198 000 random
  inputs (`validation/`), without a mismatch.

### Axioms of the theorems in `MANIFEST.json`

Output of `#print axioms`, grouped:

* only `propext`: `C22_failed_stream`, `C35_false`, `C36_false`, `C43_open`, `C51_bare_read`, `C51_open_read`, `C51_quoted_read`, `C51_quoted_written`, `C51_spelling`, `C54_stable_lossless`, `C60_overrun`, `C61_assertions`, `C61_format`, `C61_loads`, `C61_memory`, `C61_save`, `C61_save_memory`, `C74_directory`, `C80_ambiguous`, `C83_rejected_iff`;
* `propext`, `Quot.sound`: `C34_node_data`, `C56_added`, `C56_elements22`, `C56_nodes22`, `C73_bad_stream`, `C73_ends_the_same`, `C73_enough`, `C73_stream_tells`, `C73_unnoticed`, `C77_readable`, `C80_shown`, `C82_same_outcome`, `C83_same_outcome`;
* every other one: `propext`, `Classical.choice`, `Quot.sound`.

## Platform assumptions

LP64, little endian, two's complement; `int` 32 bit, `size_t` 64 bit, IEEE binary64 `double`.
`double` values are bit patterns; equality means equal bits.

## What is modelled

All of `src/*.cpp`, `src/*_nanospline_format.h`, the structs of `include/mshio`, and `examples/msh_inspect.cpp`:

| model file | code |
|---|---|
| `Model/Basic`, `Num`, `Dbl` | outcomes, integer/decimal/binary representations, `%g`, `%f`, `%e` and `strtod` |
| `Model/Numeral`, `Cfg`, `Formats` | decimal numerals, build and stream settings, the number formats of a stream |
| `Model/IStream`, `OStream` | the `std::istream`/`std::ostream` operations MshIO uses, `eat_white_space`, vectors |
| `Model/MshSpec` | `MshSpec.h`, `MshSpecExt.h` |
| `Model/ElementUtils` | `element_utils.cpp` |
| `Model/LoadBasic` | `load_msh_format`, `_physical_groups`, `_nanospline_format`, `_entities` |
| `Model/LoadNodes`, `LoadElements`, `LoadData` | `load_msh_nodes`, `_elements`, `_data`, `_curves`, `_patches` |
| `Model/PostProcess` | `load_msh_post_process` |
| `Model/Load` | `load_msh` |
| `Model/Warn` | `load_msh` with what it writes to `std::cerr` |
| `Model/Python` | every `__repr__` of `python/pymshio.cpp`, with the conversion of its result to a Python `str` (strict UTF-8) and the `repr` of a list |
| `Model/Complain` | `validate_spec` once more, with the text of the `CorruptData` it throws |
| `Model/FormatMessage` | `load_mesh_format` once more, with the text of the `UnsupportedFeature` it throws |
| `Model/Save` | `save_msh*` |
| `Model/Device` | `save_msh*` on a stream whose device has limited room |
| `Model/Broken` | `load_msh*` on a stream whose device fails |
| `Model/Validate` | `validate_spec` |
| `Model/Inspect` | the example program `msh_inspect` |

Outcomes are `ok`, `throw e`, `abort` (failed `assert`, only in builds without `NDEBUG`), `ub`
(undefined behaviour: out-of-bounds vector access, uninitialised local, division by zero, signed
overflow) and `hang` (a loop that never exits).  `Cfg` ranges over build settings (`NDEBUG`,
nanospline extension), the number format of output streams, and the largest vector the machine can allocate.

The number format (`Fmt`) is any function from finite doubles to decimal numerals, so theorems about a
`cfg : Cfg` hold for every precision and for `std::fixed`, `std::scientific` and `showpoint`;
what is lost in the text is stated with `reread cfg.fmt`, which C48-C50 describe for the three formats above.

Loops that may not terminate (`load_msh`, `forward_to`, the v2.2 binary element loop) carry a round
bound; theorems show larger bounds never change the outcome, so `hang` means the C++ loop really
never exits.

## What is not modelled

* exception messages, other than those of `validate_spec` (`Model/Complain.lean`) and `load_mesh_format` (`Model/FormatMessage.lean`);
* the buffer of an output stream that fails, where in a buffered read of several blocks an error strikes, stream exceptions, other locales, `std::hexfloat`, `std::uppercase`, field widths and flags that change integers;
* the operating system side of opening files (one boolean);
* total memory: one bound on every vector's element count stands for `bad_alloc`/`length_error`;
* of the Python binding everything but `__repr__`: attribute access, object lifetimes, nanobind and CPython themselves (the four bound functions are the modelled ones); standard error of the example program.

## Technique

* `Reads p bs v`: reader `p` on a stream that starts with `bs` (possibly after white space) returns
  `v` and consumes `bs`.  It composes under `bind`, so a section's round trip follows from its parts.
  Binary readers use the exact variant without white space.
* `Tame p`: on every stream `p` leaves a suffix, never clears `eofbit`/`failbit`, never hangs.
* `Sim p`: running `p` on a prefix of the input either does the same or notices the end of the file.
* Doubles: magnitudes are natural numbers in units of 2^-1074; printing and parsing are rational
  roundings; the classical digit-count arguments are done in `Nat`.

## Plan per property

| id | model and proof |
|---|---|
| C01 | `saveMsh`/`loadMsh`, v4.1 binary; section by section with exact readers, main loop by induction on sections |
| C02 | the same with `Reads` for text |
| C03, C04 | v2.2 readers give the flat element/node lists; then the regrouping theorems C10, C12 |
| C05-C08 | `fmtDouble`, `convertFloat`; arithmetic of round-to-nearest in `Nat` |
| C09 | `quoteText`/`inQuoted` inverse for all bytes; embedded in C01-C04 |
| C10 | `regroupElements` equals an independent "maximal runs" specification |
| C11 | folds computing min/max/count |
| C12 | `markBlock` = last writer wins; `regroupNodes` = runs of equal classification |
| C13 | sorted-set semantics of `physAdd`/`createEntities` |
| C14 | C03 twice, regrouping is idempotent |
| C15 | compose C03/C04 with C01/C02 |
| C16 | `sizeOfInt (intOfSize t) = t` iff `t < 2^31`; lifted to files |
| C17 | invariant over all readers for arbitrary bytes |
| C18 | C17 plus: shape implies the saver makes no bad access |
| C19 | C10-C12 plus `validateSpec` characterisation C34 |
| C20 | concrete non-terminating file, fuel independence, exact characterisation; which section readers can leave the stream failed before the end (Spec/Stuck, Proofs/Unstuck) |
| C21 | `Sim` for every reader |
| C22 | direct from the loop |
| C23, C24 | main loop lemmas for words and skipped sections |
| C25 | sections update disjoint fields; commutation of section updates |
| C26-C30 | direct evaluation of the reader on symbolic input |
| C31 | header round trip in binary |
| C32 | finite complete table |
| C33 | loader/saver block lemmas |
| C34 | `validateSpec` = decidable specification |
| C35 | counterexample; `_partial` with the missing hypotheses |
| C36 | counterexamples; the exact condition for 4.1 and 2.2 files, text and binary, outside the features listed in `Harmless`, `HarmlessBinary`, `Harmless22`, `Harmless22b` (`Spec/Hazards.lean`): an invariant of the main loop (`file_ub`) reduces it to one section, and each section is settled by induction on its entries, lists or groups (`EntriesUndefined`, `ListsUndefined`, `BlocksUndefined`, `GroupsUndefined`) |
| C37 | failure of `>> double` on `nan`/`inf` and stuck main loop |
| C38 | every saver under shape hypotheses |
| C39 | C02's section lemma with the extension readers switched off |
| C40 | data section lemma by induction |
| C41 | `Reads` for re-spaced token lists |
| C42 | structure of `saveMsh` output |
| C43 | direct |
| C44 | corollary of C01-C04 |
| C45-C47 | `Spec/Format.lean` is the layout; tokens, lines and sections of the round-trip lemmas shown equal to it; the loader does not look at the number format |
| C48 | scanning a numeral gives its parts; `IsMag` (rounding in units of 2^-1074) is nearness among doubles |
| C49, C50 | digit strings of the model are numerals; `IsSig`/`IsRne` are nearness among decimals; tidy numerals are determined by their value |
| C51 | `Spells` is exactly what `quotedBody` accepts; the section lemma for any spelling; a reader that runs into the end of the file |
| C52 | every printing function writes the lines of `Spec/Report`; an `int` is a double; `%g` of a small integer is the integer |
| C53 | the first index outside the vector is reached exactly if rows are wider than stored ones; witnesses |
| C54 | every writer is insensitive to what a reload changes (text of doubles, low 32 bits of tags, grouping); for 2.2 binary the length counts the groups |
| C55 | every section reader but the unchecked ones comes back with a good stream when assertions are on, so its result does not depend on what was cut off (Proofs/Cut); saved files are runs of one-round sections with known tags (Proofs/Section `Linked`, Proofs/CutSaved) |
| C56 | a reader that succeeds and leaves the stream unfailed does the same from another spec, up to a relation between the results (Proofs/Replace `Alike`); equality of the filled member in 4.1, addition in 2.2 (Proofs/Accumulate) |
| C57 | the readers before and after `eat_white_space` see the same stream whichever of the four characters is skipped (Props/White; `Skipped`, `Kept` in Spec/White); for the heads of curves and patches Props/WhiteSplines |
| C58 | how far each extraction gets is specified apart from the scanners of the model (`Place`, `TakesSize`, `TakesInt`, `TakesReal`, `TakesQuoted` in Spec/Text) and proved sound and total (Proofs/TextRead); a calculus `UbAt` (Proofs/TextUndefined) then gives the exact condition for each reader (Proofs/TextSections, DataUndefined, SectionUndefined); the specification per section is `SectionUndefined` in Spec/Undefined; files that switch to version 2.2 after nodes or elements are covered by `C58_undefined` only, which names the model of the post-processing |
| C59 | the outcome of a writer is that of its steps in order (`inOrder` in Spec/SaveEnds); loops over vectors end as `within` says (Proofs/SaveEnds) |
| C60 | `Pays k m w`: a reader that comes back with a good stream has consumed a byte for every unit of weight it adds (Proofs/Volume, Volume22); induction over the rounds of the main loop and over regrouping (Proofs/VolumeAll); the counterexamples by induction on the announced number (Proofs/Amplify) |
| C61 | `Under a m p q`: reader by reader, two builds end alike unless the first fails an assertion or an allocation (Spec/Builds, Proofs/Agree); `UnderW` for writers |
| C62 | `WithinR T ab p`: a reader throws nothing outside `T` and aborts only with assertions; the loop and post-processing by `loadMsh_throw_iff` (Proofs/Throws) |
| C63 | `ThrowsAt ex m x Q`: from the place `x` on, `m` throws `ex` exactly if `Q`; rules for each operation, then each section (Proofs/Rejected, RejectedElements, RejectedSections) |
| C64 | `loadMsh` of two files that differ by a `Reorder` of a `Chain` of sections behind a `Boundary`; the version of the boundary is 4.1 or 2.2 (`arrives_version`), frame lemma per version (`Proofs/Frame`, `Proofs/Frame22`) (Props/Order) |
| C65 | `Announces f A` (Spec/Header) says what a format section looks like; it is an `IsSection` leading to `{ spec with meshFormat := f }` (Props/Order) |
| C66 | invariant of the main loop: end of file is only seen when nothing is left (Props/Order) |
| C67 | from the round trips (same file, same load) and the resave lemmas (same content, same file); binary 2.2 by comparing the bytes of the groups (Props/SameFile) |
| C68 | as C58: a calculus `EndsAt` (Proofs/Endings) gives for each reader the exact condition to end on a failed assertion, and at once the one to leave the stream failed in front of something (which is the exact form of C20); per section in Proofs/EndingsText, EndingsNodes, EndingsData, EndingsBinary, EndingsElements, EndingsSplines, EndingsSections; whole files in Proofs/EndingsFile; the specification per section is `SectionEnds` in Spec/Endings |
| C69 | a calculus `ReadsI` (Proofs/SpellRead) of readers that read a list of items in any spelling, on top of `ReadsT`; one round of the main loop per part of the file, `RoundI`, and induction over the parts in Proofs/SpellFile; Spec/Spelling has the items of each section and their spellings (numerals as in C48, names as in C51) |
| C70 | as C69 with the readers of version 2.2 (Proofs/Spell22); what the rounds leave is computed part by part, the post-processing is `loadPostProcess22` |
| C71 | a calculus `ReadsP` (Proofs/Pieces) of readers that read a list of pieces: items in any spelling, data after one skipped byte, the byte-order marker; `ReadsI` and the exact-byte readers of C01 embed into it; one round per part (`RoundP`, Proofs/PiecesFile) and induction over the parts |
| C72 | as C71 with the readers of version 2.2 (Proofs/Pieces22); the post-processing step is shared with C70 |
| C73 | `save_msh` again over streams with a device of limited room (Model/Device); `Does` relates each writer to that of Model/Save, by following the code; C55 for what is left |
| C74 | `load_msh` again over streams that may break (Model/Broken); `Along` relates each reader to that of Model/Load on streams that do not break and on broken streams over files that end in white space; `Open`: no reader sees the end of a broken stream |
| C75 | as C63, for the exception of a vector that cannot be allocated: `ThrowsAt .alloc` for each reader (Proofs/Exhausted, ExhaustedData, ExhaustedBinary, ExhaustedSplines, ExhaustedElements), sections and files in ExhaustedSections; the specification per section is `SectionExhausts` in Spec/Exhausted; `C75_loads` combines it with C20, C58, C63 and C68 |
| C76 | what is read keeps node blocks without entity (Proofs/Regroup) besides the invariants of C36 and C10; each step of the two regrouping loops succeeds exactly if there is room for the runs so far (`Fitting`, `RunsRoom` in Proofs/RegroupRuns), and room for a list means room for what comes before; combined in RegroupFile; the specification is `RunsFit`, `TagsInside` and `regrouped` in Spec/Regroup |
| C77 | `Model/Warn` repeats the main loop with the bytes written to `std::cerr`; Proofs/Warn shows that these are the lines of the rounds (`said_round`, `said_last`) and that the outcome is that of `Model/Load`; WarnFile follows the rounds of C23, C24, C69-C72 and of saved files, whose sections are known (fourth part of `Linked`) |
| C78 | as C21: a round on a truncated file does the same or comes to the end of the file (`loadRound_trunc`), and so does the reading of its first word; a round that comes to the end is the last one (Proofs/WarnCut) |
| C79 | strict decoding is compared with Lean's encoder `String.utf8EncodeChar` (`utf8Ok_iff`, Proofs/Utf8); ASCII text can be split off anywhere (`utf8Ok_split`), which leaves the version and the names |
| C80 | a `repr` ends where its closing parenthesis is, so each part can be read off the front of the text (`ReprCuts`, Proofs/PythonCut); round trips by C01 and C02, points by C50 |
| C81 | both texts brought into the same shape; numbers by `decU64_eq`, `decI32_eq`, coordinates by C50 |
| C82 | the model with messages erases to `validateSpec`, so C34 says when a part is accepted; then the first part that is not |
| C83 | the machinery of C63, on the model that throws only for one given message |
