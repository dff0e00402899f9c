# Formal model of rqrr in Lean 4 — design

## Approach

`/repo` (Rust, read as text, never built) is modelled function by function as total, computable Lean functions under
`lean/Verif/Model/`. Independent specifications (ISO 18004 facts, connectivity, run lengths, ...) live under
`lean/Verif/Spec/`. Helper lemmas live under `lean/Verif/Proofs/`, and the property theorems under
`lean/Verif/Props/`, one file per group, each beside concrete cases that meet its hypotheses. `properties.jsonl` is the list of
claims in English, `MANIFEST.json` says which theorems prove each, `seeded/LOG.jsonl` records tests of the theorems against
wrong programs.

Conventions of the model

* `Run α` = `Except Fault α`; `Fault` is `err e` (a Rust `Err(e)`), `panic` (index out of bounds, failed
  assertion, arithmetic overflow/underflow in a checked build, division by zero, explicit `panic!`) or
  `diverge` (a loop ran out of the model's fuel). "Never panics and terminates" is thus a theorem, not an
  assumption: array accesses go through `idx`/`setIdx`/`aget`/`aset`, subtractions through `subU`, etc.
* Arithmetic overflow is a panic, as in a build with overflow checks (debug builds, tests). A theorem that a run is `.ok` holds for
  unchecked builds too, since then nothing wraps; theorems that exhibit an overflow describe checked builds only.
* `&mut` becomes a returned new value; loops become folds over ranges, or fuel recursion with the fuel fixed by
  the model and proved sufficient.
* `usize` is `Nat`. Where overflow is possible in principle it is either checked explicitly (`chkU`, 64 bits) or the comment says
  why it cannot occur. `i32` is `Int` with an explicit range check after each operation (`chk32`, `addI`, ...); `as` casts
  are modelled with their truncation (`asI32`, `asUsize`).
* `f64` is a parameter: `Model/Float.lean` has a class `FloatOps F` with exactly the operations the code uses, and all geometric code is
  written over it. Theorems quantified over `[FloatOps F]` hold for IEEE doubles as for any other arithmetic, including
  all NaN behaviour. Theorems about the instance `ratOps : FloatOps ℚ` (`Spec/Exact.lean`) say what the code computes apart
  from rounding error; the property text then says "in exact arithmetic". Theorems with `[Rounding F]` (`Spec/Rounding.lean`) hold for
  every correctly rounded arithmetic: each operation gives the exact result moved by at most a fraction of `2^-53`. `F64`
  (`Model/Binary64.lean`, `Model/Double.lean`) is a model of IEEE 754 binary64 with signed zeros, subnormal numbers, infinities and one
  NaN, rounding to nearest, ties to even; `Proofs/Double.lean` proves that it is correctly rounded. So C51, C57 to C62, C64, C65 and C67 to C73 are about
  the arithmetic of the program. That Rust's `f64` is binary64 without extended precision, and that its `round`, `floor` and casts are
  as documented, is trusted.
* Images are a parameter: `ImageBuffer S` is the trait, `LawfulImage S` (`Spec/Image.lean`) says that in-range reads and writes
  behave as a pixel array. Theorems hold for every lawful buffer; `BasicImageBuffer` and `GrayImage` are proved lawful.
* Writers (`std::io::Write`) are a parameter: any state machine that may fail at any call.

## What is modelled

| Rust | Lean |
|---|---|
| src/lib.rs: Grid, Error cases, MetaData, Version, SimpleGrid, BitGrid, decode/decode_to/get_raw_data, detected grids | Model/Basic, Decode, Lib, Identify |
| src/decode.rs: everything | Model/GF (fields and polynomials), Model/Decode |
| src/version_db.rs: the whole table | Model/VersionDb |
| src/prepare.rs: buffers, prepare, prepare_from_greyscale/bitmap, threshold, regions, LRU cache, flood fill, clone | Model/Prepare |
| src/detect.rs: everything outside the tests | Model/Detect |
| src/geometry.rs: Perspective, line_intersect, BresenhamScan | Model/Geometry |
| src/identify/*: grid location, alignment search, timing pattern, fitness and jiggling, capstone grouping | Model/Identify |
| src/lib.rs `write_grid_to`, `Display for DeQRError`, src/prepare.rs `write_state_to`, apart from saving the file | Model/Output |

Not modelled: `image::ImageBuffer::save`, derived and blanket trait implementations (`Debug`, `Error`), doc examples, benches, the `image` crate beyond its pixel buffers, performance and memory,
the allocation failure of `Vec`. The `lru` crate is modelled by its documented behaviour (a list in recency order with a
capacity), the `g2p` crate by GF(2^k) arithmetic with the polynomial basis (carry-less multiplication modulo the polynomial named
in the macro), `String::from_utf8` by Lean's `String.fromUTF8?`. `sort_unstable_by` in `find_and_rank_possible_neighbors` is
modelled by an insertion sort: the theorems about it (C48) do not depend on the order of equal elements.
The unit tests of the repo that need no image files are replayed on the model in `Props/UnitTests.lean`, as tests of the
reading.

The reading was also tested by running the model. `lean/Verif/Run.lean` is a program that applies the model to an image file with the
doubles of the machine, and `validation/run.sh` compiles it and runs it on the images of the tests in `/repo` (`validation/dec.py` and
`validation/jpg.c` decode GIF, PNG and JPEG files). The results agree with all the expectations written in the tests of the repo: the number of
capstones in `src/test_data/cap*.png` (1, 0, 0, 0), the texts of `rqrr`, `rqrr_incomplete`, `github`, `number`, `mirrored`, `superlong`, the
three texts each of `multiple.png`, `multiple_rotated.png` (in the order expected) and the photograph `gogh.jpg`, the errors of
`format_ecc.png`, `data_ecc.png`, no grid in `invalid_version.gif`, one grid in `io_error.png`, and no panic in
`should-not-panic-1.jpg` and `should-not-panic-2.jpg`. This is a test of the reading and no part of the proofs.

## Properties and proofs

| property | what is modelled | how it is proved |
|---|---|---|
| C01, C02, C52 | correct_block and callees over GF(256) built from carry-less multiplication mod 0x11D | Massey's invariant for Berlekamp-Massey, uniqueness by Lagrange polynomials, Forney identity in `Polynomial` |
| C03, C05 | correct_format over GF(16) | the same generic theorem; for all words, by linearity a reduction to 1024 syndromes, then kernel evaluation of that whole table |
| C04, C06, C07 | read_format, Version | case analysis, arithmetic |
| C08-C11 | read_data, reserved_cell, mask_bit | loop invariant for the zig-zag, generic lemma about alignment lists + table check |
| C12 | RawData, CorrectedDataStream | invariant over bit lists |
| C13, C53 | codestream_ecc | loop invariant, using C01; witness evaluated by the kernel |
| C14-C20 | decode_payload and the per-mode decoders | independent encoder in Spec, induction over segments |
| C21-C23 | decode, writers as state machines | simulation between writers |
| C24, C25, C28 | whole decode pipeline | totality lemmas; grids with partial reads, congruence |
| C26, C54 | composition; independent encoder of whole symbols in Spec | corollaries of the above; construction of a symbol for every message |
| C27 | VERSION_DATA_BASE | whole-table kernel check against independent ISO tables |
| C29, C30 | SimpleGrid, MirroredGrid | bit arithmetic |
| C31-C34, C55 | prepare, prepare_from_bitmap | loop invariants |
| C35-C39 | flood_fill, get_region, LRU cache, clone | invariants over pixel maps; reachability relation; histories of queries, claims and clones |
| C40 | LineScanner | run-length encoding as invariant; specification by maximal runs |
| C41, C42, C51 | is_capstone, corner finders, create_capstone, capstones_from_image | region theory of C35-C37; extremes over row ends; one invariant for soundness and completeness of the search |
| C43, C44 | BresenhamScan, line_intersect | integer arithmetic |
| C45 | Perspective over the rationals | algebra, the map as a weighted mean of the corners |
| C46 | timing measurement | counting lemma over the scanned line, arithmetic |
| C47 | find_alignment_pattern | explicit formula for the spiral, region theory |
| C56 | fitness_all and its parts | the nested loops are a sum over the pattern modules of the standard (Spec/Patterns), then bounds of a sum |
| C57 | prepare_from_bitmap, detect_grids, RefGridImage, decode_to with any correctly rounded arithmetic | every stage computed for a drawing with error bounds (Spec/Render; data modules need be right only in the middle, where they are sampled): capstones (C51, C41), ranking, orientation, alignment pattern, measured size, fitness (C56: a perfect score is a maximum), sampling; then C26/C54 |
| C58 | prepare, prepare_from_greyscale | running averages are bounded below by the discounted sum of the last values less the rounding; Bernoulli's inequality; then C57 |
| C59 | detect_grids, line_intersect on a drawing | the only product that can exceed 31 bits for a drawing is the one of the two squared sides and a coordinate; below the limit C57, above it the run ends in the overflow |
| C60 | prepare_from_bitmap, detect_grids | the black pixels of a drawing are connected exactly as the dark modules are, and the runs of pixel rows are those of rows or columns of the matrix, stretched and possibly reversed; a computable check of a matrix covers all numbers of pixels per module |
| C61 | Perspective::create in binary64 | numerators and denominators are integers below 2^53, so every operation but the final division is exact |
| C62 | find_and_rank_possible_neighbors in binary64 | case analysis on finite, infinite and NaN; insertion sort of comparable scores |
| C63 | prepare_from_greyscale, detect_grids, from_group, RefGridImage, decode_to, decode | a run-time logic for 'panics, or returns with a postcondition' over every function of the pipeline; the variant of each loop bounds its fuel; the history of claims shows that sampled colours do not change |
| C64 | detect_grids, decode on drawings of damaged and mirrored symbols | the function patterns and the notion of C60 are symmetric, then C57 with C26; the 32 mirrored format words; a solution of the linear equations for two readings, checked by the kernel |
| C65 | detect_grids, find_groupings, find_and_rank_possible_neighbors on several drawings | each finder pattern gives one capstone (C51, raster scan, claims); candidate pairs of a corner are those of its symbol or score worse and share a member, so grouping takes each symbol once; claims of one symbol do not touch the others; then the stages of C57 for each; a region of a drawing with a light border does not leave it, so C60 applies locally |
| C66 | write_grid_to, write_state_to (without saving), Display for DeQRError | induction over the rows and columns painted; the region invariant of C37 for what the bytes mean; the colours of all 256 bytes by computation; with C29 and the congruence of decode for the round trip |
| C67 | the same as C57 and C65, for drawings with dots | dots are separate regions smaller than a module, so neither ring nor stone of something like a finder pattern is a dot; what is left of the image is that of the blank symbol, and in blank symbols of all versions nothing can be mistaken (its regions are rings and stones at known distances; that alignment coordinates are 12 apart is checked for all 40 versions) |
| C68 | `rotate_capstone` in any rounded arithmetic, and one image in full | keys of pixels do not overflow; whether `Perspective::create` succeeds depends on the sign of one triangle (C45, with rounding C51), and corners go round a convex quadrilateral (C42). The image is an existence statement, checked by evaluating the model in the kernel |
| C69 | the whole of `detect_grids` with double precision | capstones are in different regions (C51), a ranked pair has three different capstones (C62), groups share at most their corner (C48) |
| C70 | `from_group` up to the grid size, for all images; `detect_grids` | corners of a capstone found are pixels of a weakly convex quadrilateral (C42), so points inside are mapped within a millionth of a pixel of a weighted mean of the corners (`Proofs/InnerRounded.lean`); turning by C68, counting by C43, C46; invariants of the loops of `detect_grids`. The image is evaluated in the kernel, with its pixels packed into one number (`Proofs/Packed.lean`); by C71's simulation this is the run with the library's buffer |
| C71 | all functions that access the image, for two types of buffers | simulation, function by function (`Proofs/Simulation.lean`): if the run with a buffer that rejects accesses outside ends, the run with another one ends alike; by C50 and C63 it ends |
| C72 | the whole path from the bitmap to the text, for modules of unequal sizes | as C57 with rectangles for squares (`Proofs/Box*.lean`): finder patterns with cuts that are nearly evenly spaced are found and their transforms are affine up to rounding; scans between rows of modules drift by less than a module; the search for the alignment pattern hits it, the fitted grid stays, and its sample points stay in their modules. `Proofs/Resize.lean` shows that resized pictures are such drawings |
| C73 | `prepare`, `prepare_from_greyscale` and, through equality with `prepare_from_bitmap`, the rest | the running sum with its division at each step is at most the geometrically weighted sum, and less than the window below it (induction); C31 and C34; an image of bytes is given by its pixels; light margins bound the weighted means of an indicator from below, by the inequality of arithmetic and geometric means |
| C74 | `decode`, `get_raw`, `read_format`, `codestream_ecc`, `decode_payload` | outcomes of format and block correction (C03, C05, C13, C52); the wrong codewords of a block and the differences of the codewords taken for it bound each other; the path carries what was read; decoding of the payload depends on the corrected bits only; C23 |
| C75 | `decode_payload` and the decoders of the modes | `Means` (`Spec/Payload.lean`) is an inductive relation on bit strings; totality by strong induction on the length, soundness by induction on the derivation, through the writes and results of the model as a function of the remaining bits; with C74 for grids |
| C76 | `VERSION_DATA_BASE`, `reserved_cell`, `read_data`, `codestream_ecc` | the two placement paths of version 21 are compared module by module in the kernel (one fixed symbol size, so this is the whole domain); the affected codewords are counted per block; then as C26. The counterexample at level L: the modules read for the first block from a table checked against both paths, `correct_block` run in the kernel, and C64 for the mirrored reading |
| C77 | `detect_grids`, `capstones_from_image`, `is_capstone`, `from_group`, `clone` | after a search every finder pattern has its ring or its stone claimed (C51), and no step unclaims a region; with this invariant the scan of C51 is repeated from any later state and confirms no candidate |
| C78 | the bounds of a detected grid | the image is evaluated by the kernel up to the transform and its fitness; the fitness is the greatest possible (`fitness_17_le`), so by C49 refinement returns the same transform, and by C63 what does not return panics; the condition by the areas that determine the denominators |
| C79 | the bounds of a detected grid and the modules read | the loop over the locations; an affine function on a square is a mean of its values in the corners, hence a quotient of two with a positive denominator is between its values in the corners; rounding is monotone. The part about the pixels read is in exact arithmetic |
| C48, C49 | find_groupings, jiggle_perspective | invariants with abstract ranking, viability and fitness, then instances; for the distance with rounding, a bound on the values over the five passes (`Props/Refine.lean`) |
| C50 | get_pixel_at_point | clamping arithmetic |

## Trusted base

* Lean's kernel and the axioms `propext`, `Classical.choice`, `Quot.sound`; every property theorem depends on a subset of these three
  (audited by `vcheck`). No axiom is added, no `sorry`, `native_decide` or `bv_decide` is used.
* The reading of `/repo` as recorded line by line in the comments of `Model/`, and the conventions above.
* The semantics of external crates and of Rust's standard library as stated above.
* The specifications: `Spec/` (in particular the ISO 18004 tables in `Spec/Iso.lean`, written from the standard).

## Findings

Where the code differs from what one would expect, the differing behaviour is itself a theorem.

1. Version 21: the last alignment coordinate in the table is 92, ISO 18004 has 94 (`C27_alignment_21_wrong`, `C09_fails_for_version_21`). So 94 of
   the 1156 codewords are read from wrong modules (`C76_modules`). Error correction makes up for this: every undamaged symbol is still read
   (`C76_spare`, `C76_every_message`), but at level L with nothing to spare, so one more wrong module can be too much (`C76_nothing_to_spare`).
2. A `SimpleGrid` of size 8 or less makes `decode` panic instead of returning an error (`C24_small_grids_panic`).
3. Format correction accepts some words at distance 4 or 5 from every valid word; the result is always a nearest valid
   word (`C05_accepts_distance_4_5`, `C05_format_nearest`).
4. `Version::from_size` accepts sizes that no version has, e.g. 22..24 and 178..180 (`C07_from_size_iff`).
5. In symbols with two block lengths the last data codeword of long blocks is taken from the wrong place of the interleaved stream, so one
   correctable error is lost (`C53_long_blocks_lose_an_error`); undamaged long blocks are repaired by the error correction.
6. `PreparedImage::clone` reverses the recency order of the region cache; answers do not change (`C39_clone`, `C39_same_answer`).
7. `prepare` leaves images narrower than 16 pixels entirely white, since its averages then reach over one pixel only
   (`C55_narrow_images`).
8. An image of width 0 and positive height makes `detect_grids` panic (`C51_zero_width`).
9. `line_intersect` overflows `i32` already for coordinates from 1291 on; it is safe exactly for the square 0..1290 (`C44_overflow`).
   The corner finders are safe up to 32767 (`C42_*`), `prepare` up to width 2^31.
10. `find_alignment_pattern`: the `continue` on a claimed region skips the step of the seed, so the search stays on that pixel and fails even
    if the pattern is next to it (`C47_stuck`).
11. `Perspective::create` checks only the triangle of corners 1, 2, 3, so it accepts quadrilaterals with a corner on the horizon
    (`C45_degenerate_accepted`).
12. `measure_timing_pattern` panics (assertion) if the line between the two capstones has no colour change, and 1 to 5 changes
    give size 17, that is version 0 (`C46_size`, `C46_version_zero`).
13. A corner capstone can be used by several groups (`C48_groups` and the example beside it), contrary to the idea of consuming capstones.
14. `Grid::get_raw_data` does not try the mirrored grid, unlike `decode` (`C23_*`, `C28_only_data_and_format`).
15. A count field cut off by the end of the stream is read as a shorter number instead of being an error, so it goes unnoticed if
    its bits are zeros (`C75_cut_count`).
16. The bounds of a detected grid are those of a grid with one more row and column: the code maps `grid_size + 1` where the far corner is at
    `grid_size` (`C57_detected`).
17. A large clean drawing overflows `i32` in `line_intersect`: a version 1 symbol in the top left corner of the image with 147 or more pixels per
    module makes `detect_grids` panic in checked builds (`C59_overflow`, `C59_iff`, and the example beside them).
18. Mirrored symbols are recognised only by the failure of the error correction: the mirrored format information is always accepted as another
    one (`C64_mirrored_format`). There are symbols whose mirror image is itself a correctable symbol with another content
    (`C64_two_readings`).
19. A damaged finder pattern makes `detect_grids` panic in every build: if three of the corners found for it are on one line, which happens
    when a round pattern is cut off by the edge of the image, `rotate_capstone` fails at `expect("rotated perspective can't fail")`
    (`C68_cut_off`, `C68_rotation`).
20. The assertion of finding 12 fails for actual images, in every build: three finder patterns standing on a corner that touch each other
    diagonally make `detect_grids` panic (`C70_no_changes`, an image of 29 by 21 pixels).
21. Values that no conforming segment has are accepted: groups of digits above 999, 99 or 9, pairs of letters above 2024, and ECI designators
    starting with three ones (`C75_meaning`, `C75_large_group` and the examples beside them).
22. A prepared image can be searched only once: the regions claimed by the first `detect_grids` are never released, so a second call finds
    nothing, whatever the first one found (C77). The documentation does not say so; the clone must be taken before.
23. The assertions in `Perspective::map` fail for actual images, in every build: a symbol seen at such an angle that the point one module beyond its
    far corner is on the horizon makes `detect_grids` panic when it computes the bounds (`C78_horizon`, an image of 89 by 89 pixels).
24. At a slightly steeper angle the far corner of the bounds is behind the horizon and therefore on the opposite side of the symbol, although all
    modules are in front of it (C79, the example with the far corner at (-378, -378)).
