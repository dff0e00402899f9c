{"id": "C01", "title": "Reed-Solomon correction up to half the check symbols", "statement": "If at most floor(E/2) codewords of a QR block with E error-correction codewords are altered, in any positions and to any values, decoding restores exactly the original block.", "quantifier": "every version and error-correction level, every Reed-Solomon codeword block, every error pattern of at most floor(E/2) altered codewords", "why_tests_cant": "The number of (block, error pattern) pairs is astronomically large (256^153 times the patterns); the claim is about Berlekamp-Massey, Chien search and Forney working for all of them.", "anchors": ["src/decode.rs: correct_block, block_syndromes, berlekamp_massey, eloc_poly, poly_eval, poly_add"]}
{"id": "C02", "title": "A block is accepted only as a Reed-Solomon codeword", "statement": "Whenever error correction of a block succeeds, the resulting block is a Reed-Solomon codeword (a multiple of the ISO generator polynomial with roots alpha^0..alpha^(E-1)); a block that already is a codeword is left unchanged; in all other cases the error is DataEcc. No block makes it panic.", "quantifier": "every byte block of every length and every admissible number of check symbols", "why_tests_cant": "Soundness ranges over all received words, including those far outside the correction radius.", "anchors": ["src/decode.rs: correct_block, block_syndromes"]}
{"id": "C03", "title": "Format information survives three bit errors", "statement": "If the 15 format bits of one copy differ from a valid format word in at most 3 bits, correction returns exactly that format word; and every accepted word is a valid BCH(15,5) word.", "quantifier": "all 32 format words and all error patterns; all 32768 received words for soundness", "why_tests_cant": "A theorem about the BCH code and the decoder, not about sampled words; unit tests only sample images.", "anchors": ["src/decode.rs: correct_format, format_syndromes, berlekamp_massey"]}
{"id": "C04", "title": "Format copy fallback and error order", "statement": "The metadata comes from the first format copy if that copy is correctable and otherwise from the second; FormatEcc is reported exactly when neither copy is correctable; InvalidVersion exactly when a copy is correctable but the grid size is below 21 or above 180.", "quantifier": "every grid with at least 9x9 modules", "why_tests_cant": "Ranges over all contents of both format areas and all sizes.", "anchors": ["src/decode.rs: read_format, Version::from_size"]}
{"id": "C05", "title": "Format correction picks a nearest valid word", "statement": "Whenever a format copy is corrected, no other valid format word is nearer to the bits read; words at distance 3 or less are always corrected. (It does sometimes accept words with 4 or 5 wrong bits.)", "quantifier": "all 32768 possible 15-bit reads", "why_tests_cant": "Tests look at a few images, not at the whole space of damaged format areas.", "anchors": ["src/decode.rs: correct_format"]}
{"id": "C06", "title": "Reported metadata is in range and matches the grid", "statement": "A successful decode or raw read reports version (size-17)/4 between 1 and 40, ecc_level at most 3 and mask at most 7.", "quantifier": "every grid, every module content", "why_tests_cant": "Must hold for all grids, not the handful of test images.", "anchors": ["src/decode.rs: read_format, MetaData", "src/lib.rs: Grid::decode, Grid::get_raw_data"]}
{"id": "C07", "title": "Version and grid size conversions agree", "statement": "from_size(to_size(v)) = v for versions 1..40; from_size succeeds exactly for sizes 21..180 and otherwise reports InvalidVersion; to_size(from_size(b)) is the largest conforming size not above b (so non-conforming sizes are silently rounded down).", "quantifier": "every usize", "why_tests_cant": "Unbounded integer domain.", "anchors": ["src/decode.rs: Version::from_size, Version::to_size"]}
{"id": "C08", "title": "Zig-zag traversal visits every data module exactly once in ISO order", "statement": "The raw bit stream of a grid lists each module that is not part of a function pattern exactly once, in the ISO 18004 two-column zig-zag order starting bottom right and skipping the vertical timing column; no function module is ever read as data.", "quantifier": "every conforming size / version and every grid content; the loop order for every size", "why_tests_cant": "A statement about the whole path for all versions; tests decode a few small versions.", "anchors": ["src/decode.rs: read_data, reserved_cell"]}
{"id": "C09", "title": "Reserved modules are exactly the ISO function patterns", "statement": "For every version a module is skipped as reserved iff ISO 18004 makes it part of a finder, separator, format, timing, version or alignment area. (False for version 21, whose last alignment coordinate is 92 instead of 94 in the table.)", "quantifier": "all 40 versions, all modules", "why_tests_cant": "40 versions x up to 31329 modules against an independent specification.", "anchors": ["src/decode.rs: reserved_cell", "src/version_db.rs: VERSION_DATA_BASE"]}
{"id": "C10", "title": "Raw stream length is the symbol capacity", "statement": "get_raw_data returns exactly 8*codewords + remainder bits as prescribed by ISO 18004 for the version, whatever the module contents; it always fits the fixed buffer.", "quantifier": "every version, every grid content", "why_tests_cant": "Needs all versions and all contents.", "anchors": ["src/decode.rs: read_data, RawData::push, MAX_PAYLOAD_SIZE", "src/lib.rs: Grid::get_raw_data"]}
{"id": "C11", "title": "Masking is an exact XOR with the ISO pattern", "statement": "The unmasked stream equals the stream of get_raw_data XORed bit by bit with the ISO 18004 mask condition at each visited module; get_raw_data bits are the modules as they appear in the grid.", "quantifier": "all masks 0..7, all sizes, all contents", "why_tests_cant": "Unit tests check 7x7 corners of the mask patterns only.", "anchors": ["src/decode.rs: read_bit, mask_bit, get_raw"]}
{"id": "C12", "title": "Bit stream packing and reading are inverse", "statement": "Pushing bits packs them most significant bit first; reading n bits returns the next min(n, remaining) bits as a big-endian number, advances by exactly that many and never beyond the end.", "quantifier": "every bit sequence within capacity, every sequence of read lengths up to 64", "why_tests_cant": "Histories of push/take of any length.", "anchors": ["src/decode.rs: RawData::push, CorrectedDataStream::take_bits, bits_remaining"]}
{"id": "C13", "title": "De-interleaving restores block order", "statement": "If the raw stream is the ISO interleaving of Reed-Solomon blocks (short blocks first, then blocks with one more data codeword) with at most floor(E/2) wrong codewords in each short block and at most floor(E/2)-1 in each long block, the corrected stream is the concatenation of the blocks' data codewords, with length 8 times their number. Whatever was received, the outcome is a concatenation of data parts of Reed-Solomon blocks or DataEcc.", "quantifier": "every version, level and block contents, every error pattern within these limits", "why_tests_cant": "Index arithmetic over 160 layouts and all contents.", "anchors": ["src/decode.rs: codestream_ecc", "src/version_db.rs: VERSION_DATA_BASE"]}
{"id": "C14", "title": "Numeric segments round-trip", "statement": "Decoding the ISO numeric-mode encoding of any digit string yields that digit string in ASCII.", "quantifier": "every version 1..40, every digit string whose length fits the count field", "why_tests_cant": "Unbounded strings, three remainder cases and three count widths.", "anchors": ["src/decode.rs: decode_numeric, numeric_tuple"]}
{"id": "C15", "title": "Alphanumeric segments round-trip", "statement": "Decoding the ISO alphanumeric-mode encoding of any string over the 45-character set yields that string.", "quantifier": "every version, every string whose length fits the count field", "why_tests_cant": "Unbounded strings.", "anchors": ["src/decode.rs: decode_alpha, alpha_tuple"]}
{"id": "C16", "title": "Byte segments round-trip", "statement": "Decoding the ISO byte-mode encoding of any byte string yields those bytes unchanged.", "quantifier": "every version, every byte string whose length fits the count field", "why_tests_cant": "Unbounded strings.", "anchors": ["src/decode.rs: decode_byte"]}
{"id": "C17", "title": "Kanji segments round-trip", "statement": "Decoding the ISO kanji-mode encoding of any string of Shift-JIS double-byte characters in 0x8140..0x9FFC and 0xE040..0xEBBF yields those bytes.", "quantifier": "every version, every such string whose length fits the count field", "why_tests_cant": "Unbounded strings over thousands of characters.", "anchors": ["src/decode.rs: decode_kanji"]}
{"id": "C18", "title": "ECI designators are skipped", "statement": "An ECI header with a 1, 2 or 3 byte designator is consumed completely and produces no output; the following segments decode as if it were absent.", "quantifier": "every designator 0..999999 and every following stream", "why_tests_cant": "All designators and continuations.", "anchors": ["src/decode.rs: decode_eci, decode_payload"]}
{"id": "C19", "title": "Mixed segment streams round-trip", "statement": "A stream of any number of segments of any modes followed by a terminator (or fewer than four trailing bits) decodes to the concatenation of the segments' payloads, whatever follows the terminator.", "quantifier": "every list of encodable segments, every padding", "why_tests_cant": "Arbitrary sequences of segments.", "anchors": ["src/decode.rs: decode_payload"]}
{"id": "C20", "title": "Malformed payloads are rejected with the right error", "statement": "A mode nibble other than 0,1,2,4,7,8 gives UnknownDataType; a byte or kanji segment whose announced length exceeds the remaining bits gives DataUnderflow before any of its bytes is written; payload decoding always terminates and never panics, and its only errors are UnknownDataType, DataUnderflow and IoError.", "quantifier": "every corrected data stream, every writer", "why_tests_cant": "All bit streams.", "anchors": ["src/decode.rs: decode_payload, decode_byte, decode_kanji, decode_numeric, decode_alpha, decode_eci"]}
{"id": "C21", "title": "Writer contract of decode_to", "statement": "The bytes handed to a writer that fails at some point are a prefix of the bytes an always-accepting writer receives; after the writer reports an error it is never called again and decode_to returns IoError; a writer that never fails never causes IoError.", "quantifier": "every grid and every (stateful) writer", "why_tests_cant": "All failure points of all writers.", "anchors": ["src/decode.rs: decode, decode_payload", "src/lib.rs: Grid::decode_to"]}
{"id": "C22", "title": "decode is decode_to plus UTF-8 validation", "statement": "decode() succeeds iff decode_to into a vector succeeds and the bytes are valid UTF-8, and then returns the string with exactly those bytes; EncodingError is returned exactly when the bytes are not valid UTF-8.", "quantifier": "every grid", "why_tests_cant": "All payload byte strings.", "anchors": ["src/lib.rs: Grid::decode, From<FromUtf8Error> for DeQRError"]}
{"id": "C23", "title": "Mirrored grids", "statement": "The transposed grid is tried exactly when reading or error correction of the grid itself fails; if both fail, the error of the grid itself is returned; if exactly one orientation passes error correction, a grid and its transpose decode to the same result.", "quantifier": "every grid and writer", "why_tests_cant": "All grids and orientations.", "anchors": ["src/decode.rs: decode", "src/lib.rs: MirroredGrid"]}
{"id": "C24", "title": "Decoding never panics and always terminates", "statement": "decode, decode_to and get_raw_data return a Result, without panic, out-of-bounds access, arithmetic overflow or endless loop, for every grid of size at least 9. (False below 9: a SimpleGrid of size 8 or less makes decode panic.)", "quantifier": "every grid of any size >= 9 with arbitrary module contents", "why_tests_cant": "Totality over all inputs.", "anchors": ["src/decode.rs: decode, get_raw and everything below", "src/lib.rs: Grid::decode, SimpleGrid::bit"]}
{"id": "C25", "title": "Decoding reads only modules inside the grid", "statement": "For a grid of size at least 9, decode and get_raw_data ask for modules at coordinates below the size only; hence grids that agree there give identical results.", "quantifier": "every grid of size >= 9", "why_tests_cant": "All sizes and contents.", "anchors": ["src/decode.rs: read_format, read_data, read_bit"]}
{"id": "C26", "title": "End-to-end decoding of damaged symbols", "statement": "For a grid that carries an ISO-conforming symbol (any version but 21, any level, mask and segment list), with at most 3 wrong bits in the first format copy and at most floor(E/2) wrong codewords in each short block and floor(E/2)-1 in each long block, decode_to writes exactly the encoded payload and returns the right version, level and mask.", "quantifier": "all versions except 21, levels, masks, payloads, error patterns within capacity", "why_tests_cant": "The product of all dimensions above.", "anchors": ["src/decode.rs: decode", "src/lib.rs: Grid::decode_to"]}
{"id": "C27", "title": "The version table is ISO 18004 and internally consistent", "statement": "For every version and level the block sizes, data sizes, block counts and total codewords are those of ISO 18004; blocks tile the symbol exactly and every block has 7 to 30 check symbols and at most 153 codewords. The alignment coordinates are those of ISO 18004 except for version 21.", "quantifier": "40 versions x 4 levels", "why_tests_cant": "The table is data: nothing but a comparison with the full specification settles it.", "anchors": ["src/version_db.rs: VERSION_DATA_BASE", "src/decode.rs: codestream_ecc"]}
{"id": "C28", "title": "Only format and data modules matter", "statement": "Changing finder, timing, alignment, version or separator modules of a grid never changes the direct reading of get_raw_data.", "quantifier": "all grids, all changes outside the format and data modules", "why_tests_cant": "All modifications.", "anchors": ["src/decode.rs: get_raw, read_format, read_data"]}
{"id": "C29", "title": "SimpleGrid stores the given function", "statement": "SimpleGrid::from_func(size, f).bit(y, x) = f(x, y) for all coordinates below size, and size() = size.", "quantifier": "every size and every function", "why_tests_cant": "All sizes.", "anchors": ["src/lib.rs: SimpleGrid::from_func, SimpleGrid::bit"]}
{"id": "C30", "title": "Mirroring is an involution", "statement": "Mirroring a grid twice gives the original modules; mirroring keeps the size.", "quantifier": "every grid and coordinate", "why_tests_cant": "Universal statement.", "anchors": ["src/lib.rs: MirroredGrid"]}
{"id": "C31", "title": "prepare produces a black/white image", "statement": "After prepare every pixel of the image is black or white, the dimensions are unchanged, and no arithmetic step over- or underflows. A pixel becomes black exactly if its grey value is below 95 % (in integer arithmetic) of the mean of two running averages of the grey values, taken along the two serpentine paths through the rows, which weigh the last pixels of the path with a window of an eighth of the width.", "quantifier": "every image of every size and content", "why_tests_cant": "All images.", "anchors": ["src/prepare.rs: PreparedImage::prepare"]}
{"id": "C32", "title": "prepare keeps bright pixels and uniform images white", "statement": "prepare never turns a pixel of luminance 242 or more black, and an image of one single luminance becomes all white.", "quantifier": "every image", "why_tests_cant": "All images.", "anchors": ["src/prepare.rs: PreparedImage::prepare"]}
{"id": "C33", "title": "prepare is causal in the rows", "statement": "The binarisation of a row depends only on that row and the rows above it.", "quantifier": "all pairs of images that agree on the first rows", "why_tests_cant": "Pairs of arbitrary images.", "anchors": ["src/prepare.rs: PreparedImage::prepare"]}
{"id": "C34", "title": "prepare_from_bitmap reproduces the bitmap", "statement": "The pixel at (x, y) is black iff the given function returned true there; the function is called exactly once per pixel in row-major order.", "quantifier": "every width, height and function", "why_tests_cant": "All sizes.", "anchors": ["src/prepare.rs: prepare_from_bitmap, without_preparation, BasicImageBuffer"]}
{"id": "C35", "title": "Region painting recolours exactly the connected component", "statement": "Repainting at a pixel changes to the target colour exactly the pixels 4-connected to it through pixels of its colour, leaves all other pixels untouched, and terminates.", "quantifier": "every image of every size, every start pixel, every pair of distinct colours", "why_tests_cant": "All shapes of regions.", "anchors": ["src/prepare.rs: flood_fill, repaint_and_apply"]}
{"id": "C36", "title": "Rows reported while painting partition the region", "statement": "Each pixel of the repainted region lies in exactly one reported row span, and all span pixels belong to the region; so the counted area is the size of the region.", "quantifier": "every image and start pixel", "why_tests_cant": "All shapes.", "anchors": ["src/prepare.rs: flood_fill, AreaCounter, Row"]}
{"id": "C37", "title": "Region queries are exact for every history", "statement": "After any sequence of region queries and claims starting from a freshly prepared image, querying a non-white pixel never panics and, if the region is unclaimed, reports the exact number of pixels of its connected black region - also after any number of evictions from the 251-entry region cache.", "quantifier": "all images and all histories of queries/claims", "why_tests_cant": "Unbounded histories; the cache only overflows after 251 regions.", "anchors": ["src/prepare.rs: get_region, repaint_and_apply, PreparedImage.cache"]}
{"id": "C38", "title": "Detection never changes black/white information", "statement": "Region queries and claims recolour only non-white pixels into non-white colours: the set of white pixels, and so every module read through a detected grid, is that of the prepared image.", "quantifier": "all images and histories", "why_tests_cant": "All histories.", "anchors": ["src/prepare.rs: get_region, repaint_and_apply", "src/identify/grid.rs: RefGridImage::bit"]}
{"id": "C39", "title": "Cloned images answer region queries like the original", "statement": "A clone has the same pixels and the same cached regions as the original. (Its eviction order is reversed: the clone replays the cache from most to least recently used.)", "quantifier": "all images and histories", "why_tests_cant": "All histories.", "anchors": ["src/prepare.rs: impl Clone for PreparedImage"]}
{"id": "C40", "title": "The line scanner reports exactly the 1:1:3:1:1 run patterns", "statement": "While scanning a line, a candidate is reported at a pixel iff that pixel is white, the one before it is not, and the five maximal runs before it have lengths that fit 1:1:3:1:1 within three quarters of the mean short length; the reported positions are the starts of the first, third and fifth of these runs. Perfect patterns of every scale fit.", "quantifier": "every line of pixels of any length and colours", "why_tests_cant": "All lines.", "anchors": ["src/detect.rs: LineScanner::new, advance, test_for_capstone"]}
{"id": "C41", "title": "Capstone candidates are confirmed by connectivity and area", "statement": "After any history of queries and claims, a candidate is accepted iff its outer runs lie in one unclaimed region, its centre in a different unclaimed region, and 100*stone/ring area (rounded down) lies strictly between 10 and 70; the check does not panic and changes no claims.", "quantifier": "all images, histories and candidate positions", "why_tests_cant": "All images.", "anchors": ["src/detect.rs: is_capstone"]}
{"id": "C42", "title": "Corner finders return extreme points", "statement": "The first corner is a pixel of the region at maximal distance from the start point; the four corners maximise the four directional scores over all pixels of the region, and so go round a convex (possibly degenerate) quadrilateral; the leftmost finder returns a pixel extreme across its line. The whole region, and nothing else, is claimed.", "quantifier": "every region of every image with sides up to 32768, every start point and line in that range", "why_tests_cant": "All shapes.", "anchors": ["src/detect.rs: FirstCornerFinder, AllCornerFinder", "src/identify/grid.rs: LeftMostFinder"]}
{"id": "C43", "title": "Line scan is a gap-free digital line", "statement": "The scan between two points starts at the first, ends at the second, has max(|dx|,|dy|)+1 points, moves at each step by exactly one in some coordinate and at most one in the other, and never strays a full pixel, in either coordinate, from the corresponding point of the straight segment.", "quantifier": "all pairs of points with coordinates in -2^29 .. 2^29-1", "why_tests_cant": "All pairs.", "anchors": ["src/geometry.rs: BresenhamScan"]}
{"id": "C44", "title": "Line intersection is exact and overflow free on moderate coordinates", "statement": "For points with coordinates in 0..1290 nothing overflows; the result is None iff the direction vectors are parallel, and otherwise it is the unique common point of the two lines with coordinates truncated towards zero. The bound is sharp: coordinates up to 1291 can overflow 32 bits.", "quantifier": "all quadruples of points in the square 0..1290", "why_tests_cant": "Overflow depends on magnitudes no unit test uses.", "anchors": ["src/geometry.rs: line_intersect"]}
{"id": "C45", "title": "Perspective transform maps corners to corners and is invertible", "statement": "In exact arithmetic: create succeeds iff corners 1,2,3 turn in the positive direction; the transform maps (0,0),(w,0),(w,h),(0,h) to the four given corners in order and rounds to exactly those pixels; unmap inverts map and map inverts unmap; a convex quadrilateral contains the image of the whole rectangle, with no point on the horizon; the centre goes to the intersection of the diagonals. (create checks only one of the four triangles, so it accepts degenerate quadrilaterals with a corner on the horizon.)", "quantifier": "all quadrilaterals accepted by create, all points off the horizon", "why_tests_cant": "Continuum of inputs.", "anchors": ["src/geometry.rs: Perspective::create, map, unmap"]}
{"id": "C46", "title": "Grid size from timing pattern", "statement": "The measured grid size is always 17+4k. A scan of the timing pattern counts the colour changes along the line between its two ends; 4v+2 to 4v+5 changes give exactly the size of version v (an ideal pattern has 4v+4), 1 to 5 changes give size 17 (a version that does not exist), and no change at all is a panic. Every detected grid has the size of a version from 0 to 40.", "quantifier": "all numbers of colour changes, all images and end points of the scan; the last claim for any floating point arithmetic, the exact counts for one in which small integers are exact, as in double precision (C62)", "why_tests_cant": "All integers.", "anchors": ["src/identify/grid.rs: measure_timing_pattern, version_from_grid_size, from_group"]}
{"id": "C47", "title": "The alignment search finds the first suitable region on its spiral", "statement": "The search for the alignment pattern terminates without panic, claims nothing, and its result depends only on the regions of the prepared image and the claims: the first point of a square spiral around the seed that lies in a claimed region or in an unclaimed one of between half and twice the estimated size decides; the result is that point if its region is unclaimed, and nothing otherwise. In particular a found point lies in the image on a black pixel of such a region; if there is one in a square around the seed with fewer than 100n pixels that no claimed region touches, the search succeeds; if the seed is in a claimed region it fails whatever is beside it. The estimated size is that of the parallelogram spanned by the seed, the point one module below it as seen by the first finder pattern and the point one module to its right as seen by the third.", "quantifier": "all images, histories of queries and claims, seeds and estimates for which the spiral stays in the range of i32", "why_tests_cant": "All images.", "anchors": ["src/identify/grid.rs: find_alignment_pattern"]}
{"id": "C48", "title": "Groups of capstones share at most their corner, and no viable group is left", "statement": "Every reported group is viable and consists of a capstone and a pair ranked for it; two groups have at most their corner capstone in common (a corner can be reused: counterexample given), and every remaining candidate has a used capstone or is not viable. In exact arithmetic the ranked pairs are exactly the pairs of a capstone close to one axis and one close to the other axis at similar distances, groups consist of three distinct capstones, and there are at most half as many groups as capstones.", "quantifier": "all capstone lists, neighbour rankings and viability answers", "why_tests_cant": "All combinations.", "anchors": ["src/prepare.rs: find_groupings", "src/identify/match_capstones.rs: find_and_rank_possible_neighbors, find_possible_neighbors"]}
{"id": "C49", "title": "Perspective refinement never makes the fit worse", "statement": "The refined transform has a fitness at least that of the initial one, and is the initial one unless its fitness is strictly greater. Refinement succeeds whenever the fitness can be computed. In exact arithmetic no coefficient moves by more than 31/800 of its initial value (this bound is attained), so zero coefficients stay zero. In any correctly rounded arithmetic, the machine's doubles included, the value of a coefficient (of at most 2^190) moves by no more than a twenty-fifth of itself and 2^-187, so all coefficients stay finite.", "quantifier": "all images, transforms and fitness functions; any floating point arithmetic except for the distance bound, which is for exact and for correctly rounded arithmetic", "why_tests_cant": "All inputs.", "anchors": ["src/identify/grid.rs: jiggle_perspective, fitness_all"]}
{"id": "C50", "title": "Sampling clamps to the image", "statement": "Sampling a non-empty image at any point, however far outside, reads the nearest pixel of the image and never goes out of bounds.", "quantifier": "all points and images", "why_tests_cant": "All points.", "anchors": ["src/prepare.rs: get_pixel_at_point"]}
{"id": "C51", "title": "The capstone search finds exactly the finder patterns", "statement": "Searching a freshly prepared image of positive width for capstones succeeds. Every capstone belongs to a finder pattern of the prepared image (1:1:3:1:1 runs in a row, connected ring, separate stone, area ratio) and has the extreme corners of its ring; no ring gives two capstones; only rings are claimed; and for every finder pattern the ring is claimed, or its stone is itself a claimed ring. Centres never panic in double precision: before rounding to pixels they are within a millionth of a pixel of the exact centres.", "quantifier": "all images of positive width with sides up to 32768; any arithmetic in which centres of small convex quadrilaterals are points, in particular exact arithmetic and IEEE double precision", "why_tests_cant": "All images. (False for width 0 and height > 0.)", "anchors": ["src/detect.rs: capstones_from_image, create_capstone"]}
{"id": "C52", "title": "Reed-Solomon correction returns a nearest codeword", "statement": "Whenever error correction of a block succeeds, no other codeword of the same length is closer to the received block.", "quantifier": "every received block, every block size and admissible number of check symbols", "why_tests_cant": "Quantifies over all received words and all competing codewords.", "anchors": ["src/decode.rs: correct_block"]}
{"id": "C53", "title": "Long blocks lose one correctable error", "statement": "In symbols with blocks of two sizes the last data codeword of a long block is taken from the wrong place of the interleaved stream, so the full correction capability does not hold for long blocks: there is a version 5-Q symbol with nine wrong codewords in a block with 18 check codewords, for which decoding reports success with wrong data.", "quantifier": "existential (a defect); the positive part for all symbols is C13", "why_tests_cant": "Undamaged symbols decode correctly because error correction silently repairs the misplaced codeword; only damage at the exact limit shows it.", "anchors": ["src/decode.rs: codestream_ecc"]}
{"id": "C54", "title": "Every message that fits has a symbol", "statement": "For every version except 21, every level, mask and list of segments whose encoding is not longer than the data capacity of the symbol, there is a grid (with arbitrary prescribed function patterns outside the first format copy) that decode_to decodes to exactly the payload of the segments, with that version, level and mask; in particular every string that fits is the decode() of some SimpleGrid.", "quantifier": "all versions except 21, levels, masks, segment lists within capacity, strings", "why_tests_cant": "Surjectivity onto all messages.", "anchors": ["src/decode.rs: decode", "src/lib.rs: Grid::decode, SimpleGrid::from_func"]}
{"id": "C55", "title": "Images narrower than 16 pixels are binarised to white", "statement": "Preparing an image less than 16 pixels wide gives an all-white image, whatever its content.", "quantifier": "every image of width below 16, any height and content", "why_tests_cant": "Ranges over all contents and heights; the tests only prepare wide photographs.", "anchors": ["src/prepare.rs: PreparedImage::prepare"]}
{"id": "C56", "title": "What the fitness of a perspective measures", "statement": "For every version except 21, the fitness that grid location maximises is the sum, over the modules of the timing, finder and alignment patterns of ISO/IEC 18004, of nine samples per module, counted positively for dark modules and negatively for light ones (samples outside of the image count nothing). It does not depend on what regions have been claimed before, is at most nine times the number of these modules, and that maximum is reached exactly by the transforms that take every sample to a pixel of the right colour.", "quantifier": "all images, all claim histories, all versions but 21, all transforms whose samples fit in 32-bit coordinates, any arithmetic", "why_tests_cant": "A statement about all transforms and images; the tests only see whether the final grid decodes.", "anchors": ["src/identify/grid.rs: fitness_all, fitness_apat, fitness_capstone, fitness_ring, fitness_cell"]}
{"id": "C57", "title": "A cleanly drawn symbol is found and read", "statement": "Take any version except 21, any module matrix with the finder, separator, timing and alignment patterns of that version (its other modules are arbitrary), and draw it into a black and white image with an integral number of at least two pixels per module, upright or turned by quarter turns, at any place within the first 10001 rows and columns of an image with sides up to 32768, with a module size and place such that (7s-1)^2 times either coordinate of the first pixel of the bottom right 7 x 7 modules is less than 2^31 (s pixels per module). Only the modules of the finder, separator, timing and alignment patterns need be drawn in full: any other module must have its colour only at the one, two or four pixels in its middle. Anything else may be in the image, apart from one light pixel around the three finder patterns, as long as nothing but the three finder patterns passes for a finder pattern (runs 1:1:3:1:1 in a row, connected outer runs, separate inner region of 11 to 69 percent). Then detect_grids succeeds and returns exactly one grid; its size is that of the matrix, every module reads as drawn, so decode_to gives exactly what it gives for the matrix itself; the bounds are the corners of a drawing with one more row and column. In particular every message that fits is read back from every such drawing of one of its symbols prepared with prepare_from_bitmap.", "quantifier": "all versions but 21, all matrices with the right function patterns, all scales, places and quarter turns, all messages, levels and masks; any correctly rounded arithmetic, in particular IEEE 754 double precision as in the program, and exact arithmetic", "why_tests_cant": "Whole pipeline, over all symbols, sizes, places and orientations; tests run a few pictures.", "anchors": ["src/prepare.rs: PreparedImage::prepare_from_bitmap, detect_grids, find_groupings", "src/detect.rs: capstones_from_image", "src/identify/match_capstones.rs: find_and_rank_possible_neighbors", "src/identify/grid.rs: SkewedGridLocation::from_group, RefGridImage", "src/lib.rs: Grid::decode_to"]}
{"id": "C58", "title": "Dark pixels become black; black on white drawings in greyscale are read", "statement": "Let t be an eighth of the width, at least 2. If, for some m, the luminances of the last m*t places of the two averaging paths up to a pixel of luminance p add up to at least t * 4^m * (200*(p+1) + 190) / 95, the pixel becomes black (m = 1: the mean of these places is at least about 4.2 p + 8.3). So a black on white picture given to prepare_from_greyscale, each black pixel of which has enough white in that sense before it, is binarised exactly, and what C57 says of bitmaps - one grid, the right modules, the message - holds for greyscale drawings.", "quantifier": "all images of width at least 16, all pixels, all numbers of windows; all messages, versions but 21, drawings as in C57", "why_tests_cant": "Lower bound of a running average with rounding, for all images.", "anchors": ["src/prepare.rs: PreparedImage::prepare, prepare_from_greyscale"]}
{"id": "C59", "title": "Large drawings overflow, and exactly those", "statement": "Draw a symbol as in C57 but with so many pixels s per module that (7s-1)^2 times a coordinate of the first pixel of the bottom right 7 x 7 modules is 2^31 or more. Then detect_grids panics with an arithmetic overflow when built with overflow checks. So for every version but 21 detection of a clean drawing succeeds if and only if the drawing is within that limit. For version 1 in the top left corner the limit is 146 pixels per module.", "quantifier": "all versions, all matrices with the right function patterns, all scales, places and quarter turns", "why_tests_cant": "An exact limit over all drawings; tests use small pictures and never reach it.", "anchors": ["src/geometry.rs: line_intersect", "src/identify/grid.rs: SkewedGridLocation::from_group", "src/prepare.rs: PreparedImage::detect_grids"]}
{"id": "C60", "title": "Looking like a finder pattern is a matter of the matrix", "statement": "Say that a module matrix is unmistakable with s pixels per module if, wherever five runs of one of its rows or columns, dark and light in turn, have lengths as 1:1:3:1:1 when stretched s times, with the outer ones connected to each other through dark modules and not to the middle one, they lie in one of the three finder patterns. Then in no clean drawing of it with s pixels per module, whatever its place, orientation and image, does anything but its finder patterns pass for a finder pattern. So every message that fits is read back from every clean drawing within the limit of C59 if its matrix is unmistakable.", "quantifier": "all matrices, scales, places, quarter turns and image sizes; all messages, levels, masks and versions but 21", "why_tests_cant": "Relates connectedness of pixels to that of modules for all drawings at once.", "anchors": ["src/prepare.rs: PreparedImage::prepare_from_bitmap, detect_grids", "src/detect.rs: capstones_from_image, LineScanner"]}
{"id": "C61", "title": "Perspective transforms in double precision are as accurate as can be", "statement": "For any four corners with coordinates up to 32767 and a square of integral side up to 200, the transform computed in double precision exists if and only if the one in exact arithmetic does, and each of its eight coefficients is a double nearest to the exact coefficient: no error accumulates. Sums, differences, products and quotients in the model of f64 are doubles nearest to the exact results.", "quantifier": "all quadruples of corners with coordinates up to 32767 in magnitude, all sides up to 200", "why_tests_cant": "All inputs; a test would need exact arithmetic to compare with.", "anchors": ["src/geometry.rs: Perspective::create"]}
{"id": "C62", "title": "Ranking of neighbours in double precision", "statement": "Ranking the neighbours of a capstone never panics in double precision, whatever the capstones are, even if coefficients are infinite or NaN: the expect in the comparison of scores cannot fail. The ranked pairs are exactly those that pass the three tests, in ascending order of their scores. A group consists of three different capstones, and there are at most half as many groups as capstones. Small integers and centres of capstones behave as C46 and C51 require.", "quantifier": "all lists of capstones with arbitrary double precision transforms", "why_tests_cant": "All inputs including NaN and infinities.", "anchors": ["src/identify/match_capstones.rs: find_and_rank_possible_neighbors, find_possible_neighbors", "src/prepare.rs: find_groupings"]}
{"id": "C63", "title": "Detection and decoding end, whatever the image", "statement": "No image makes detect_grids run for ever: it panics or returns. If it returns, every grid has the size of a version from 0 to 40 and four corners, and reading its modules from the processed image gives what reading them from the prepared image gives, although detection has repainted regions. Decoding a grid ends as well: with a panic, with an error value other than EncodingError from decode_to, or with metadata of the version that belongs to the size. So a greyscale picture of any content and any size from 1 x 1 to 32768 x 32768 is prepared, searched and decoded in finitely many steps.", "quantifier": "all prepared images up to 32768 pixels a side, all greyscale pictures, every correctly rounded arithmetic (double precision and exact), every writer", "why_tests_cant": "Every possible picture.", "anchors": ["src/prepare.rs: PreparedImage::detect_grids, prepare_from_greyscale", "src/identify/grid.rs: SkewedGridLocation::from_group, RefGridImage", "src/identify/helper.rs", "src/lib.rs: Grid::decode, Grid::decode_to"]}
{"id": "C64", "title": "Damaged and mirrored drawings", "statement": "A drawing of a damaged symbol with intact finder, timing and alignment patterns is read back as long as each block and the format information can be corrected. A drawing of the mirror image of a symbol is found too, its modules are read as drawn, and it decodes to the content of the symbol unless the mirror image happens to be readable and correctable as it stands. The format information does not help to tell: in the mirror image of any symbol it is always corrected to that of another level or mask. And it does happen: there is an undamaged symbol of which every clean drawing reads 'yes', and every clean drawing of the mirror image reads 'no'.", "quantifier": "all versions but 21, levels, masks, messages, damages within capacity, drawings within the limit of C59; every correctly rounded arithmetic", "why_tests_cant": "All messages, damages and drawings at once; the ambiguous symbol satisfies 176 linear equations over GF(2) and would not be met by chance.", "anchors": ["src/decode.rs: decode, read_format, correct_format", "src/lib.rs: Grid::decode", "src/prepare.rs: PreparedImage::detect_grids"]}
{"id": "C65", "title": "Several symbols in one image are all found and read", "statement": "Draw any number of symbols into one image, of any versions but 21, each as in C57 (its own size, place and quarter turn), so that the drawings do not overlap, nothing else passes for a finder pattern, and no three finder patterns of different symbols pass for those of one symbol: a corner with another one above or below and a third beside it, each off by at most a fifth of the distance, at distances that differ by at most a quarter (a corner that is the first of a symbol may have such a false partner if the distances differ by more than an eighth). Then detect_grids succeeds and returns exactly one grid for each symbol, its modules read as drawn, and it decodes as the matrix does. For a bitmap of symbols that do not touch each other, all conditions are on the matrices and the places: any number of messages in one bitmap are all read back. Symbols of one version and size side by side satisfy the condition on the corners if the distance from one to another is more than 4/3 of that of the finder patterns of a symbol, and not within about a fifteenth of twice that.", "quantifier": "all lists of symbols, versions, sizes, places, quarter turns and messages; all images around them; every correctly rounded arithmetic, in particular IEEE 754 double precision", "why_tests_cant": "All arrangements of any number of symbols; the tests have one picture with more than one.", "anchors": ["src/prepare.rs: PreparedImage::detect_grids, find_groupings", "src/identify/match_capstones.rs: find_and_rank_possible_neighbors", "src/identify/grid.rs: SkewedGridLocation::from_group", "src/detect.rs: capstones_from_image"]}
{"id": "C66", "title": "Debug pictures show what the library sees", "statement": "The picture saved by BitGrid::write_grid_to has one pixel per module, black exactly where Grid::bit is true, and nothing is lost: reading the picture back with SimpleGrid::from_func gives a grid that decodes as the original, with the same result for every writer. The picture saved by PreparedImage::write_state_to, at any time in the life of the image, has its size, is white exactly where the prepared image is, and finder patterns found are red, alignment patterns green, regions marked for the moment blue. Neither panics before saving. Different decoding errors are displayed differently.", "quantifier": "all grids of less than 2^32 modules a side (for the round trip at least 9), all images of less than 2^32 pixels a side, all sequences of region calls, all pairs of errors", "why_tests_cant": "All grids and all histories of an image; debug output is not tested at all.", "anchors": ["src/lib.rs: BitGrid::write_grid_to, Display for DeQRError", "src/prepare.rs: PreparedImage::write_state_to"]}
{"id": "C67", "title": "Symbols drawn with dots are read whatever they contain", "statement": "Draw a symbol of any version except 21 with at least four pixels per module such that the finder, separator, timing and alignment patterns are drawn in full, the other modules are light along their edges with a dot of any shape in the middle that no row of the image crosses twice, and the pixels around the drawing are light. Then nothing in the drawing passes for a finder pattern but its finder patterns, whatever the data modules are. So if nothing outside the drawing does either, detect_grids returns exactly one grid and its modules read as drawn; every message that fits into a symbol, at any level and with any mask, is read back from every bitmap of such a drawing prepared with prepare_from_bitmap, with no further condition; and so are any number of messages in one bitmap, if the drawings do not touch and there are no false corners as in C65.", "quantifier": "all versions but 21, all matrices with the right function patterns, all dots, scales from 4, places and quarter turns, all messages, levels and masks; every correctly rounded arithmetic, in particular IEEE 754 double precision", "why_tests_cant": "No test can say that no message whatsoever is misread.", "anchors": ["src/prepare.rs: PreparedImage::prepare_from_bitmap, detect_grids", "src/detect.rs: capstones_from_image, LineScan", "src/identify/grid.rs: SkewedGridLocation::from_group, RefGridImage", "src/lib.rs: Grid::decode_to"]}
{"id": "C68", "title": "Which capstones make the detection panic when they are turned", "statement": "Three capstones of an image of up to 32768 by 32768 pixels are turned so that the corner farthest off the line between two of their centres (the first one in case of a tie) comes first. This panics exactly if the other three corners are on one line, and never overflows; so capstones with four proper corners never make it panic. Capstones with three corners on one line do occur: there is a bitmap of 15 by 13 pixels, with a finder pattern cut off by the upper edge, for which detect_grids panics in every build.", "quantifier": "all images up to 32768 by 32768, all capstones found in them, all three of them in all roles; every correctly rounded arithmetic, in particular IEEE 754 double precision", "why_tests_cant": "The panic needs an unusual picture; tests with photographs of whole symbols never reach it, and cannot show that the degenerate case is the only one.", "anchors": ["src/identify/grid.rs: rotate_capstone, SkewedGridLocation::from_group", "src/geometry.rs: Perspective::create", "src/prepare.rs: detect_grids"]}
{"id": "C69", "title": "No more grids than the finder patterns allow", "statement": "If everything in an image that looks like a finder pattern (runs of the lengths 1 : 1 : 3 : 1 : 1 in a row, with connected outer runs around another region of the right size) is connected to one of n pixels, then the search finds at most n capstones, and detect_grids reports at most n / 2 grids. If n is at most two, detect_grids reports no grid, and does not panic, whatever else the image contains. In particular a bitmap of two finder patterns of any sizes at any places has no grid, and neither has an image with fewer than seven columns.", "quantifier": "all images with sides up to 32768 and at least one column, all collections of finder patterns; IEEE 754 double precision (the count of capstones for every correctly rounded arithmetic)", "why_tests_cant": "It excludes false positives and panics for all images without three finder patterns; tests try a few.", "anchors": ["src/prepare.rs: detect_grids, find_groupings", "src/detect.rs: capstones_from_image", "src/identify/match_capstones.rs: find_and_rank_possible_neighbors"]}
{"id": "C70", "title": "Where every reported grid comes from", "statement": "Take any three capstones found in an image. Either one of them has three corners on one line, as C68 says, and locating a grid panics; or they are turned, the pixels in the middle of their modules facing each other are determined (the projective map of the seven by seven modules onto the four corners, to within a millionth of a pixel before rounding), and the changes of colour along the two lines between them are counted. If neither line has a change, locating panics; there is an image of 29 by 21 pixels for which this happens and detect_grids panics, with the corners of all three finder patterns being proper convex quadrilaterals. Otherwise a grid located has 17 + 4 * ((n - 2) / 4) modules per side, n being the larger count. Every grid detect_grids reports comes from three capstones of the image as prepared in this way, and no two of the three are connected.", "quantifier": "all images with sides up to 32768 and at least one column, whatever they show; all three capstones; every correctly rounded arithmetic, for the last sentence IEEE 754 double precision", "why_tests_cant": "Tests use images of symbols; this says what is reported, and when it panics, for images that are not.", "anchors": ["src/identify/grid.rs: SkewedGridLocation::from_group, measure_timing_pattern, timing_scan, rotate_capstone", "src/geometry.rs: Perspective::map, BresenhamScan", "src/prepare.rs: detect_grids"]}
{"id": "C71", "title": "The image buffer does not matter", "statement": "Let two buffers, of any two types implementing the image buffer interface lawfully, have the same width, height and pixels. Then binarising them gives images with the same pixels, whatever the two buffers do with accesses outside. Detecting grids in the two images panics for both or reports the same grids for both (corners, bounds and location, bit by bit) and leaves images with the same pixels behind; and decoding each grid into any writer has the same outcome, the same header or error, and the same state of the writer. So a program that stores pixels in another way, such as the image crate's buffer or a user's own, gets the same results as one using the library's.", "quantifier": "all pairs of lawful image buffers with the same pixels, of sides up to 32768 and at least one column; every correctly rounded arithmetic; every writer", "why_tests_cant": "Tests use one or two buffer types; there are as many implementations of the interface as users.", "anchors": ["src/prepare.rs: ImageBuffer, PreparedImage::prepare, detect_grids, get_pixel_at_point", "src/detect.rs: capstones_from_image", "src/identify/grid.rs: SkewedGridLocation::from_group", "src/lib.rs: Grid::decode_to, RefGridImage"]}
{"id": "C72", "title": "Symbols with modules of unequal sizes", "statement": "A symbol need not be drawn with square modules of one size. Let each column of modules begin at a place that is as evenly spaced as whole pixels allow (at most half a pixel from an arithmetic progression with a step of at least seven pixels), and so each row, with a step of its own; this covers every picture of a symbol resized to a width and a height of at least seven pixels per module by taking for each pixel the module it falls in. Then a symbol of any version but 21, in any of the four orientations, at any place within the first 10001 rows and columns and with arbitrary data modules is the only one detected, has the right size, each of its modules reads as drawn, and it decodes as its matrix does; so every message is read from every such picture. If the product of the lengths of the sides of a finder pattern times a coordinate of the bottom right 7 x 7 modules exceeds the range of 32-bit integers, detection panics instead. Nothing else may look like a finder pattern.", "quantifier": "all versions 1 to 40 but 21, data modules, orientations, places, and column and row boundaries as described; all messages; every correctly rounded arithmetic, IEEE 754 doubles included", "why_tests_cant": "The sizes of modules vary by a pixel along a row, and with them every count and every rounding in locating the grid; there are too many widths, heights and places to try.", "anchors": ["src/prepare.rs: PreparedImage::prepare_from_bitmap, detect_grids", "src/detect.rs: capstones_from_image", "src/identify/match_capstones.rs: find_and_rank_possible_neighbors", "src/identify/grid.rs: SkewedGridLocation::from_group, measure_timing_pattern, find_alignment_pattern, setup_perspective, rotate_capstone", "src/geometry.rs: Perspective::create, map, line_intersect, BresenhamScan"]}
{"id": "C73", "title": "Greyscale pictures with contrast are read like bitmaps", "statement": "Preparing a greyscale image compares every pixel with a threshold: 95 percent of the mean of two weighted averages of the luminances up to the pixel, along the path through the rows in alternating directions and the one in the opposite directions, where the place i steps back has the weight (1 - 1/t)^i / t and t is an eighth of the width. A pixel not below the threshold becomes white, one at least two levels below becomes black. So if a picture shows a bitmap with that much contrast, prepare_from_greyscale gives exactly the image that prepare_from_bitmap gives of the bitmap, and everything said about bitmaps holds. This is so for pictures in two inexact tones, with light pixels that differ by at most five percent, if there is enough light before every dark pixel; for a drawing of any content between light margins that depends only on the widths and tones. Every message drawn with dots in such a picture is found and read.", "quantifier": "all images, sizes, luminances, bitmaps and pixels; all messages, versions 1 to 40 but 21, orientations, places and scales of at least four; every correctly rounded arithmetic, IEEE 754 doubles included", "why_tests_cant": "The threshold depends on all pixels before, through a running sum with an integer division at each step; whether all rounding errors together can change a colour is not a matter of trying pictures.", "anchors": ["src/prepare.rs: PreparedImage::prepare, prepare_from_greyscale, prepare_from_bitmap, detect_grids", "src/decode.rs: decode"]}
{"id": "C74", "title": "What is decoded is what an undamaged symbol nearest to the grid says", "statement": "Whatever a complete grid of the size of a symbol (any version but 21) shows, either decode_to returns FormatEcc or DataEcc and writes nothing, or there are a level, a mask pattern and Reed-Solomon blocks nearest to what the grid or its transpose shows, and decode_to does for every writer exactly what it does for any undamaged symbol with these blocks, level and mask pattern. Nearest means: no other format word differs in fewer bits from the first format copy (from the second, if every format word differs from the first in more than three bits), and no other Reed-Solomon block has fewer wrong codewords (a long block may have up to two more, because its last data codeword is taken from the wrong place). So a string is decoded only if it is the text of an undamaged symbol with the reported version, level and mask pattern.", "quantifier": "all grid contents, versions 1 to 40 but 21, writers and writer states", "why_tests_cant": "Says that damage beyond the guaranteed capacity never leads to a payload of no symbol at all; there are 2^441 grids of the smallest size alone.", "anchors": ["src/decode.rs: decode, read_format, correct_format, codestream_ecc, correct_block", "src/lib.rs: Grid::decode, Grid::decode_to"]}
{"id": "C75", "title": "What every bit string, and so every grid, is decoded to", "statement": "Every bit string has exactly one meaning in a given version: the bytes it stands for and an ending (complete, cut off, unknown mode), given by rules for segments, terminator, ECI designators, values that no conforming segment has, and data that end too early. decode_to appends exactly these bytes and returns success, DataUnderflow or UnknownDataType accordingly. So for every complete grid of the size of a symbol (any version but 21), decode_to either reports FormatEcc or DataEcc and appends nothing, or appends and returns what the data codewords of nearest blocks mean. In particular groups of digits above 999 are accepted and cut to three digits, and a character count cut off by the end of the data goes unnoticed if its bits are zeros.", "quantifier": "all bit strings, versions and endings; all grid contents of versions 1 to 40 but 21", "why_tests_cant": "The rules cover every bit string of every length, malformed ones included, not the output of an encoder.", "anchors": ["src/decode.rs: decode_payload, decode_numeric, numeric_tuple, decode_alpha, alpha_tuple, decode_byte, decode_kanji, decode_eci, CorrectedDataStream::take_bits", "src/lib.rs: Grid::decode_to"]}
{"id": "C76", "title": "Version 21 symbols are read in spite of a wrong table entry", "statement": "The table has 92 instead of 94 as the last alignment coordinate of version 21, so alignment modules are read as data and data modules skipped. In the order of reading exactly 94 of the 1156 codewords of a symbol are affected: numbers 47 to 125 and fifteen others; all bits of the others come from the modules that show them. In every block at every level the affected codewords are no more than error correction can repair, so every undamaged version 21 symbol conforming to ISO 18004 decodes to its message, and every message that fits has such a symbol. At levels M, Q and H another 6, 8 and 9 wrong codewords in every block are corrected too. At level L nothing is to spare: there is an undamaged symbol that is read but is not read any more once the module in the bottom right corner is changed, although a block has 28 check codewords.", "quantifier": "all version 21 symbols: levels, masks, messages, function modules, damages within the stated number of codewords; the last claim is existential (a defect)", "why_tests_cant": "The effect of the wrong coordinate cancels out for every undamaged symbol, so tests that encode and decode version 21 symbols pass; that it does so for all messages and masks, and with exactly no margin at level L, follows from the positions of all 9252 modules and the block structure, not from samples.", "anchors": ["src/version_db.rs: VERSION_DATA_BASE[21]", "src/decode.rs: read_data, reserved_cell, codestream_ecc", "src/lib.rs: Grid::decode_to"]}
{"id": "C77", "title": "An image can be searched only once", "statement": "When detect_grids has returned on a prepared image, whatever the image shows and whatever was found, every later call of detect_grids on this image, or on a clone made after the first call, returns an empty list and does not panic; also after any number of further calls and clones. The modules of the grids found the first time read the same in all these images. A clone made before the first call is equal to the image. In particular every message drawn with dots (C67) is found by the first search of the bitmap and by no later one.", "quantifier": "all prepared images up to 32768 pixels a side with at least one column, all sequences of searches and clones, every correctly rounded arithmetic, in particular IEEE 754 double precision", "why_tests_cant": "tests search each image once; that nothing is ever left over for a second search, and that it cannot panic even where the first one rejected candidates, concerns all images and all states of the region cache", "anchors": ["src/prepare.rs:PreparedImage::detect_grids", "src/detect.rs:capstones_from_image", "src/detect.rs:is_capstone", "src/prepare.rs:PreparedImage::get_region", "src/prepare.rs:PreparedImage::clone"]}
{"id": "C78", "title": "A symbol seen at a particular angle makes the detection panic", "statement": "There is a bitmap of 89 by 89 pixels, three finder patterns and timing modules seen in perspective, for which detect_grids panics in every build, although all three patterns are found with convex corners and every sample of the function patterns of the located grid has the right colour, so that no transform fits better and no refinement takes place. What fails is the assertion that the mapped coordinates are in the range of i32: the far corner of the bounds, one module beyond the grid, is on the horizon. In exact arithmetic this happens for a grid of size n exactly if the two triangles that the corner without a finder pattern makes with the three others are together (n + 9) / 8 times as large as the triangle of these three.", "quantifier": "existence for the panic, with double precision; all sizes and all corner points for the condition", "why_tests_cant": "The panic needs a coincidence of the position of four points to the pixel; test images do not meet it by chance, and the condition is over all quadrilaterals.", "anchors": ["src/prepare.rs: detect_grids", "src/geometry.rs: Perspective::map", "src/identify/grid.rs: jiggle_perspective, setup_perspective"]}
{"id": "C79", "title": "The bounds of a detected grid enclose what is read, if all of it is in front of the horizon", "statement": "Whatever the image and the floating point arithmetic, the four bounds of every grid returned by detect_grids are the points to which the transform by which its modules are read takes the corners of a square of one module more than the grid has. In exact arithmetic, if the denominators of the transform are positive in these corners, then no module of the grid makes reading panic and the pixel of every module is within the upright rectangle around the bounds. For the transform made of four corner points before its refinement, the denominators are positive exactly if three inequalities between the areas of the triangles of these points hold. If they do not, the far corner of the bounds can be on the opposite side of the symbol.", "quantifier": "all images and all grids detected in them; all transforms, sizes and points of the square", "why_tests_cant": "Every image and every transform; tests compare the bounds for a few photographs.", "anchors": ["src/prepare.rs: detect_grids", "src/geometry.rs: Perspective::map, Perspective::create", "src/identify/grid.rs: RefGridImage"]}
