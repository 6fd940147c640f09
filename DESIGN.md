# Formal model of mnit-rtmc/ntcip in Lean 4

Lean 4.33.0 and Mathlib, project in `lean/`.  `lake build` in `lean/` checks everything.

* `lean/Verif/Model` - the code of /repo, function by function; each definition cites file and lines.
* `lean/Verif/Spec` - specifications, written without the functions of the model that they judge (they use its data types, and
  where a claim is about text of a message, the tokens of the message).
* `lean/Verif/Props` - the property theorems `Cnn_...`, each with concrete cases beside it (`example ... := by decide`, or a
  theorem about an example sign of `Verif/Tests`).
* `lean/Verif/Lemmas` - helper lemmas.
* `lean/Verif/Tests` - the unit tests of the repository, run against the model by the kernel (`decide +kernel`).  They
  are evidence that the model is right, not proofs of properties.
* `properties.jsonl`, `MANIFEST.json` - properties, and theorems for each.
* `seeded/` - wrong programs: `LOG.jsonl` has a line for each wrong edit of the model, with the theorems that fail.
* `tools/` - scripts that write MANIFEST.json and this file.

## Trusted base

* The Lean kernel.  No `native_decide`, `bv_decide`, `sorry`, `unsafe`, `implemented_by`, own axioms.
* Axioms: every theorem depends at most on `propext`, `Classical.choice`, `Quot.sound` (listed for each property below).
* The model is a translation by hand.  That a definition of `Verif/Model` does what the cited Rust lines do is not proved;
  it was checked by reading, by the repository's own tests (`Verif/Tests`: fonts, MULTI parsing and normalisation, patterns,
  rendering of pages), and by the negative theorems, which were traced through the source by hand.
* Semantics of Rust, its standard library and of the crates `pix`, `fstr`, `crc`, `enumflags2` and `tfon`, as far as written below.

### What is modelled

All of src/dms of the repository, and the rendering example with its image writer:

| file | model | not modelled |
|------|-------|--------------|
| multi.rs | Model/Multi.lean: values, colors, color context, rectangles, `Display`, parsers of all tags, `MultiStr` iteration, `split`, `normalize`, `is_blank`, `join_text`, `text_spans` | `Debug`, `log` messages, the text of errors |
| render.rs | Model/Render.lean: pages, page state, render state, text spans, lines, layout, graphics, rectangles; Model/Release.lean: the same in release builds | - |
| sign.rs | Model/Sign.lean, Model/Position.lean: builder, accessors used by the rest, pixel positions | - |
| config.rs | Model/Config.lean: types, `validate` in checked and wrapping arithmetic | - |
| font/mod.rs | Model/Font.lean: tables, lookup, widths, drawing, validation, version ID | - |
| font/tfon.rs | Model/Tfon.lean: parse and write in terms of the properties of the `tfon` crate | the text layer of the `tfon` crate, reading from a stream, I/O errors |
| graphic.rs | Model/Graphic.lean: tables, pixels, drawing, validation, version ID | - |
| oer.rs | Model/Oer.lean: encoder, CRC-16 | - |
| pattern.rs | Model/Pattern.lean: iteration, `fill`, `lines`, `widths` | - |
| examples/graphic.rs | Model/Example.lean: the file written | writing the file |
| examples/bmp/mod.rs | Model/Bmp.lean: the bytes of the file | writing the file; the conversion to BGR by `pix` (the alpha channel is dropped, clear pixels become black) |
| examples/render.rs | Model/Example.lean: the sign, the message and the loop over the pages | failures of writing a file |

### Conventions, and simplifications

* `str`/`String` is `List Char` (`Str`); Lean's `Char` is, as in Rust, a Unicode scalar value.  Where the code slices by
  bytes the model has UTF-8 sizes, and slicing inside of a character is a panic.
* `u8`/`u16`/`u32` fields are `UInt8`/`UInt16`/`UInt32`.  Arithmetic that can overflow goes through `chk8`, `chk16`,
  `sub16`: overflow is the outcome `panic` - the profile with `overflow-checks`, default for `cargo build` and `cargo test`.
  Release builds wrap around instead: Model/Release.lean has the renderer, text widths and `widths` in this profile, and
  C82 shows that results without overflow are the same in both.  config.rs (C18), pixel positions (C25) and intersections
  of rectangles have the profile as a parameter.
* `usize` is `Nat` (64 bit, never exceeded by the sizes that occur).
* `Result`/`Option` stay data; every panic (`unwrap`, index, `unimplemented!`, `unreachable!`, `debug_assert!`,
  arithmetic) is the explicit outcome `panic` of `Res`/`Out`.
* `&mut self` methods return the new value.  When a method fails after changing fields, the model has the changed fields.
* Iterators are lists, or a step function where laziness matters (`Pages.next`, `PatIter.next`).  Parsing of an item is
  lazy in the code, and so it is in the model: an item is parsed when it is reached.
* Loops are structural recursions; `while` loops have fuel, with a proof that it is enough (or that the loop does not
  end, C26).
* Fonts and graphics are in tables of fixed length in the code (const generics `C`, `F`, `G`); the model has lists of
  any length.
* `f32` (pixel positions) is the rational number, with rounding to nearest even at each operation (Model/F32.lean).  No
  infinity, NaN or negative zero; C25 has the bounds that exclude them.
* `Raster<SRgb8>` of `pix` is a function of coordinates with a size.  `Rgb` is three bytes.  Color conversion of `pix`
  is not used by the crate.
* `FStr<64>` (names) is a string cut to 64 bytes at a character boundary; up to the first NUL when read.  Its default
  value is 64 spaces (`defaultName`), which are then the name of an unused slot and of a font read without a name.
* `u16::from_be` in version IDs (C30) swaps bytes, as on little-endian hosts; on a big-endian host the code would give other
  version IDs.
* Logging has no modelled effect.

## Properties

For each: the claim in full, its status, what is modelled and how it is proved, the theorems, and, for a partial one,
what is missing.  The English statement with quantifier is in properties.jsonl.  `_false` theorems are
counterexamples to the full claim; the code, not the model, is the reason.

### C01 split is lossless (proved)

*Claim:* Concatenating, in order, every item produced by multi::split(ms) gives back exactly ms, every item is non-empty, and the iteration ends.
*For:* every string ms.

*How:* `slices` models repeated `next_slice`; strong induction on string length.

*Result:* All strings; iteration is the Iterator::next relation, its end and the concatenation are proved.

*Theorems:* Props/Split.lean: `C01_split_lossless`, `C01_slices_is_iteration`.
*Axioms:* Classical.choice, Quot.sound, propext.

### C02 split cuts on tag boundaries (proved)

*Claim:* Every item of multi::split(ms) is either the escape `[[` or `]]`, a complete bracketed tag with no bracket inside, a maximal text span without brackets, a stray `]`, or an unterminated `[...` fragment; two text spans are never adjacent.
*For:* every string ms.

*How:* token-shape predicate in Spec; induction along `slices`.

*Result:* All strings; also uniqueness: any cut on tag boundaries is the one split makes.

*Theorems:* Props/Split.lean: `C02_split_cuts_on_tag_boundaries`, `C02_split_unique`, `C02_no_adjacent_spans`.
*Axioms:* Classical.choice, Quot.sound, propext.

### C03 MULTI analysis never panics (partial)

*Claim:* normalize, is_blank, text_spans, join_text return normally for every string (no byte-index panic).
*For:* every string ms (any Unicode).

*How:* slicing by byte index is modelled with an explicit panic outcome; exact characterisation of the panicking tags, absence of panic for all other strings; the full claim is FALSE of the code (witness theorem).

*Result:* Exact characterisation: normalize/text_spans/join_text panic iff an item is an [fl..]/[mv..] tag with a non-ASCII character where the code slices one byte; is_blank never panics without such an item. The full claim is false (C03_false: "[flé]"); all-ASCII strings never panic (C03_ascii).

*Theorems:* Props/Panic.lean: `C03_item_panics_iff`, `C03_panics_iff`, `C03_no_panic_partial`, `C03_ascii`, `C03_false`.
*Axioms:* Classical.choice, Quot.sound, propext.

### C04 accepted tags are in range (proved)

*Claim:* A tag is only accepted when its parameters are within the ranges the documentation/1203 allows: [nl] digit 0-9, [sc] 0-99, [fl] times 0-99, font and graphic numbers 1-255, rectangle and graphic origins at least 1, field ids below 14, moving-text linear delay 0-9.
*For:* every tag string.

*How:* case analysis on `parseTag`, with integer types of the code.

*Result:* Every item of every string; ranges stated in Spec/Values.lean (InRange).

*Theorems:* Props/Ranges.lean: `C04_in_range`, `C04_values_in_range`.
*Axioms:* Classical.choice, Quot.sound, propext.

### C05 tag names and numbers are case-insensitive (proved)

*Claim:* Changing the ASCII case of any letters of a tag that carries no free text ([ms], [/ms], [mv] excluded) changes neither whether it is accepted nor its value.
*For:* every tag string and every re-casing of it.

*How:* every sub-parser is shown invariant under re-casing.

*Result:* All plain tag bodies without free text; acceptance and value agree for any two re-casings.

*Theorems:* Props/Case.lean: `C05_case_insensitive`.
*Axioms:* Classical.choice, Quot.sound, propext.

### C06 canonical tag text denotes the same value (partial)

*Claim:* Writing any accepted value in its canonical text form and parsing that text gives back the same value, so rewriting a message (normalize, fill) does not change the meaning of its tags.
*For:* every accepted tag value.

*How:* show/parse inverse lemmas for decimal and hex, per constructor; FALSE for [hc] (witness).

*Result:* Every value of every item round-trips, except [hc] from 10 up, which is written in decimal and read in hexadecimal (C06_hex_partial is exact; C06_false).

*Theorems:* Props/Canonical.lean: `C06_roundtrip_partial`, `C06_hex_partial`, `C06_false`.
*Axioms:* Classical.choice, Quot.sound, propext.

### C07 normalize is idempotent (partial)

*Claim:* normalize(normalize(ms)) = normalize(ms).
*For:* every string ms.

*How:* re-tokenisation theorem for concatenated canonical tokens, then induction with the normalize state as invariant; FALSE when an [hc] tag is present (witness). Exact condition by injectivity of the canonical text of a value.

*Result:* All strings without an [hc] of 10 or more; false otherwise (C07_false). C07_iff gives the exact condition: normalizing again changes nothing exactly when the message has no [hc] of 10 or more.

*Theorems:* Props/Normalize.lean: `C07_idempotent_partial`, `C07_false`; Props/NormalizeExact.lean: `C07_iff`.
*Axioms:* Classical.choice, Quot.sound, propext.

### C08 normalize output is well formed (partial)

*Claim:* Every item of the output of normalize is a valid tag or a valid text span: nothing malformed, unsupported or with an invalid character remains.
*For:* every string ms.

*How:* same re-tokenisation theorem. Exact condition.

*Result:* All strings without an [hc] of 10000 or more; false otherwise (C08_false). C08_iff gives the exact condition: all items of the normalized text are valid exactly when there is no [hc] of 10000 or more.

*Theorems:* Props/Normalize.lean: `C08_well_formed_partial`, `C08_false`; Props/NormalizeExact.lean: `C08_iff`.
*Axioms:* Classical.choice, Quot.sound, propext.

### C09 normalize keeps the visible text (proved)

*Claim:* The text of normalize(ms), joined with the empty separator, is the text of ms with only trailing white space removed; no other character is lost, added or reordered.
*For:* every string ms.

*How:* induction over values; trailing part is white space.

*Result:* All strings on which normalize does not panic (C03). With a non-empty separator the claim would be false (C09_separator_false), hence the empty separator in the statement.

*Theorems:* Props/Normalize.lean: `C09_text_kept`, `C09_separator_false`.
*Axioms:* Classical.choice, Quot.sound, propext.

### C10 normalize removes redundant state tags (proved)

*Claim:* In the output of normalize no [cf], [fo], [jl] or [jp] tag repeats the value already in effect (starting from default), and removing them never removes a tag that changes the value in effect.
*For:* every string ms.

*How:* invariant over the fold state; independent spec on output values.

*Result:* All strings: no redundant tag remains; every character and tag keeps its color, font and justification. C10_effect leaves hexadecimal characters out (C06); C10_effect_hex_partial includes the ones below 10.

*Theorems:* Props/Normalize.lean: `C10_no_redundant`, `C10_effect`, `C10_effect_hex_partial`.
*Axioms:* Classical.choice, Quot.sound, propext.

### C11 normalize only drops trailing blanks (partial)

*Claim:* normalize(ms) is empty exactly when every valid item of ms is blank; the output never ends with a blank item, and every non-blank valid item of ms is kept, in order.
*For:* every string ms.

*How:* same fold invariant.

*Result:* Empty iff nothing visible; last item visible; all visible tags kept in order except [hc] from 10 up, which are changed or lost (C11_false). Text: C09.

*Theorems:* Props/Normalize.lean: `C11_empty_iff`, `C11_last_visible`, `C11_kept`, `C11_kept_hex_partial`, `C11_false`.
*Axioms:* Classical.choice, Quot.sound, propext.

### C12 is_blank means nothing visible (proved)

*Claim:* is_blank(ms) is true exactly when every item is valid and none is a non-whitespace text span, graphic, color rectangle, field, hex character, manufacturer tag or moving text; and then normalize(ms) is empty.
*For:* every string ms.

*How:* unfold to a spec predicate on items.

*Result:* All strings.

*Theorems:* Props/Normalize.lean: `C12_blank_iff`, `C12_normalize`.
*Axioms:* Classical.choice, Quot.sound, propext.

### C13 bracket escaping round-trips (proved)

*Claim:* For any text of valid code points, escaping `[` as `[[` and `]` as `]]` and then extracting with join_text(.., "") returns the original text.
*For:* every text over U+0001..U+00FF.

*How:* re-tokenisation of escaped text, induction on text.

*Result:* All texts over U+0001..U+00FF.

*Theorems:* Props/Escape.lean: `C13_escape`.
*Axioms:* Classical.choice, Quot.sound, propext.

### C14 text extraction ignores tags (proved)

*Claim:* text_spans(ms) yields exactly the valid text items of ms in order: inserting, removing or changing any tag (valid or not) between items changes nothing else.
*For:* every sequence of text spans and tags.

*How:* re-tokenisation of mixed sequences.

*Result:* All strings on which text_spans does not panic; the only side condition is that the string before the tag does not end with an unfinished "[".

*Theorems:* Props/Escape.lean: `C14_exact`, `C14_tag_ignored`.
*Axioms:* Classical.choice, Quot.sound, propext.

### C15 8-bit monochrome interpolation (partial)

*Claim:* Monochrome 8-bit level v yields, per component, background at 0, foreground at 255, and in between the exact rounded-down linear interpolation, never outside the two components and monotone in v.
*For:* every background/foreground component and level (2^24 combinations per component) and proof of the shift trick.

*How:* arithmetic (omega); endpoint claim FALSE when background > foreground (witness).

*Result:* Exact rounded-down interpolation, bounds and end points are proved when foreground >= background per component; the full claim is false when background > foreground (C15_false, C15_inverted).

*Theorems:* Props/Color.lean: `C15_interpolation_partial`, `C15_between`, `C15_level0_iff`, `C15_inverted`, `C15_false`, `C15_rgb_monochrome_8`.
*Axioms:* Classical.choice, Quot.sound, propext.

### C16 color scheme admits exactly its colors (proved)

*Claim:* A color in a tag is accepted on a sign exactly when the sign's color scheme can show it: levels 0/1 on 1-bit, any level on 8-bit, classic 0-9 on classic and 24-bit, RGB triples only on 24-bit; otherwise rendering produces no page and, unless another error of the page comes first, reports UnsupportedTagValue for a tag with such a color.
*For:* every scheme and color.

*How:* case analysis against a separate spec table (Spec/Values.lean `ColorOk`); lifted to the renderer through every loop that sees colors (Lemmas/PageColor.lean).

*Result:* Acceptance by the color context for all schemes and colors (C16_rgb_iff, C16_set_*); a page with a color the scheme cannot show is never produced, wherever the tag is (C16_no_page), so a message rendered without error has only colors of the scheme (C16_message); the error is UnsupportedTagValue naming a tag with such a color when no text rectangle, graphic, color rectangle or unimplemented tag comes before it (C16_reported; those can fail first with their own error).

*Theorems:* Props/Color.lean: `C16_rgb_iff`, `C16_set_foreground`, `C16_set_background`, `C16_rgb_value`; Props/PageColor.lean: `C16_message`, `C16_no_page`, `C16_reported`.
*Axioms:* Classical.choice, Quot.sound, propext.

### C17 classic color numbers round-trip (proved)

*Claim:* ColorClassic::from_u8 accepts exactly 0..9, inverts the conversion to u8, and distinct classic colors have distinct RGB.
*For:* every u8.

*How:* finite table, complete `decide`.

*Result:* All byte values and all classic colors.

*Theorems:* Props/Color.lean: `C17_values`, `C17_from_u8_range`, `C17_round_trip`, `C17_injective`.
*Axioms:* propext.

### C18 sign dimension validation (partial)

*Claim:* SignCfg::validate accepts exactly when border + pixels x pitch fits in the face width and height as integers, for any field values, without panicking.
*For:* every SignCfg and VmsCfg field value.

*How:* two build profiles (checked/wrapping arithmetic); FALSE on overflow (witnesses).

*Result:* Exact acceptance in checked arithmetic and without overflow; with overflow the claim is false (panic or wrong acceptance, C18_checked_panics, C18_wrapping_false).

*Theorems:* Props/Config.lean: `C18_checked_accepts_iff`, `C18_validate_partial`, `C18_checked_panics_iff`, `C18_checked_panics`, `C18_wrapping_iff`, `C18_wrapping_no_panic`, `C18_wrapping_false`.
*Axioms:* Classical.choice, Quot.sound, propext.

### C19 MULTI config validation (proved)

*Claim:* MultiCfg::validate accepts exactly when at least one page is allowed and multi-page signs support [np].
*For:* every MultiCfg.

*How:* direct iff.

*Result:* All configurations.

*Theorems:* Props/Config.lean: `C19_multi_cfg_validate`.
*Axioms:* Classical.choice, Quot.sound, propext.

### C20 font table validation (partial)

*Claim:* FontTable::validate accepts exactly when every numbered font has positive height, every numbered character's bitmap has exactly ceil(width x height / 8) bytes, and font numbers and character numbers (other than 0) are unique; it never panics.
*For:* every font table of any size.

*How:* iff against a spec with `Nodup`; panic on duplicate surrogate numbers (witness).

*Result:* Exact acceptance is proved for all tables; that it never panics only without duplicate surrogate character numbers, since the claim is false with them (C20_false). C20_error_iff: exactly which error for which table; C20_panics_iff: exactly when it panics.

*Theorems:* Props/BuildError.lean: `C20_error_iff`, `C20_panics_iff`; Props/Tables.lean: `C20_accepts_iff`, `C20_no_panic_partial`, `C20_false`.
*Axioms:* Classical.choice, Quot.sound, propext.

### C21 graphic table validation (proved)

*Claim:* GraphicTable::validate(w,h) accepts exactly when every numbered graphic is at least 1x1, fits in w x h, has a bitmap of exactly the size its type needs, a transparent color of the matching kind, and graphic numbers are unique.
*For:* every graphic table of any size and every sign size.

*How:* iff against a spec.

*Result:* All tables and sizes. C21_error_iff: exactly which error for which table.

*Theorems:* Props/BuildError.lean: `C21_error_iff`; Props/Tables.lean: `C21_accepts_iff`, `C21_graphic_iff`.
*Axioms:* Classical.choice, Quot.sound, propext.

### C22 a built sign is valid (proved)

*Claim:* If DmsBuilder::build succeeds, the sign keeps the given configuration and fonts, its tables satisfy the font and graphic validity rules, every graphic larger than the sign has been dropped and every other graphic is kept unchanged.
*For:* every builder state.

*How:* from C20/C21 and `retain`.

*Result:* All builders.

*Theorems:* Props/Tables.lean: `C22_built_sign_valid`, `C22_build_succeeds_iff`.
*Axioms:* Classical.choice, Quot.sound, propext.

### C23 rebuilding a sign is the identity (proved)

*Claim:* For any built sign, into_builder().build() succeeds and gives the same sign; and after build the number of each surviving graphic still looks up the same graphic.
*For:* every built sign.

*How:* retain is the identity on fitting tables.

*Result:* All built signs.

*Theorems:* Props/Tables.lean: `C23_rebuild`, `C23_graphic_lookup`, `C23_font_lookup`.
*Axioms:* Classical.choice, Quot.sound, propext.

### C24 font and graphic tables behave like maps (proved)

*Claim:* In a valid table, looking up a positive number returns the unique entry with this number; filling an unused slot obtained by number 0 makes the new number resolve to the new entry and leaves every other lookup unchanged, for any sequence of insertions.
*For:* every table and every sequence of insertions.

*How:* refinement of the table to a partial map, induction over insertion sequences.

*Result:* Any sequence of insertions.

*Theorems:* Props/Tables.lean: `C24_font_lookup`, `C24_graphic_lookup`, `C24_font_update`, `C24_graphic_update`, `C24_font_room`, `C24_font_insertions`, `C24_graphic_insertions`.
*Axioms:* Classical.choice, Quot.sound, propext.

### C25 pixel positions are ordered and on the face (partial)

*Claim:* Dms::pixel_x and pixel_y are monotone in the pixel index and map pixels of the sign to positions inside 0..width (0..height).
*For:* every built sign with non-zero face, every pixel pair.

*How:* f32 as rationals rounded at each operation (Model/F32.lean); rounding is shown monotone and with relative error 2^-24; bounds on position from error propagation.

*Result:* f32 is modelled as rationals with IEEE round-to-nearest-even at every operation (Model/F32.lean). C25_monotone is complete: all signs, all indices. C25_position_partial: every pixel of a sign is within w/2^18 of its exact center (Spec/Position.lean); C25_inside_partial, C25_strict_partial, C25_centred_partial: strictly inside, distinct, symmetric. Conditions: pixels plus gaps fit in 16 bits, pitch not zero; C25_false has a built sign and a panic or a pixel beyond the face without them.

*Theorems:* Props/Position.lean: `C25_monotone`, `C25_position_partial`, `C25_inside_partial`, `C25_strict_partial`, `C25_centred_partial`, `C25_false`.
*Axioms:* Classical.choice, Quot.sound, propext.

### C26 fillable line count is maximal (partial)

*Claim:* The number of fillable lines reported for a rectangle (MessagePattern::widths) is the largest n such that n lines of the font with line spacing between them fit in the rectangle (character height on character/line matrix signs), and the computation ends.
*For:* every sign, rectangle height and font.

*How:* maximality by induction on the loop; divergence witness for a zero-height font 0.

*Result:* Maximality and termination are proved when the font and rectangle heights are positive; with default font 0 of height 0 the loop does not end (C26_false). C26_endless_iff: exactly when it does not end.

*Theorems:* Props/Lines.lean: `C26_rect_lines_partial`, `C26_endless_iff`, `C26_spec_unique`, `C26_false`.
*Axioms:* Classical.choice, Quot.sound, propext.

### C27 text width (partial)

*Claim:* Font::text_width is the sum of the character widths plus one spacing for each character that follows non-zero width; it fails with InvalidChar of the first undefined character, exactly when there is one.
*For:* every font, text and spacing.

*How:* induction on text.

*Result:* Exact sum and first undefined character are proved whenever the sum fits u16; otherwise it overflows (C27_false). NUL is found in unused slots (C27_nul_defined). C27_panics_iff: exactly when it panics.

*Theorems:* Props/Text.lean: `C27_ok_iff`, `C27_err_iff`, `C27_total_partial`, `C27_panics_iff`, `C27_false`, `C27_character_iff`, `C27_nul_defined`.
*Axioms:* Classical.choice, Quot.sound, propext.

### C28 glyph drawing equals is_pixel_lit (proved)

*Claim:* Drawing a valid character at (x,y) sets to the foreground color exactly the pixels (x+col,y+row) for which is_pixel_lit(row,col), changes no other pixel, and never leaves the width x height box.
*For:* every valid character entry, position and raster.

*How:* invariant over the byte/bit loop; two-sided pixel characterisation.

*Result:* Any character, page and position inside the page.

*Theorems:* Props/Text.lean: `C28_glyph_drawing`, `C28_is_pixel_lit`, `C28_inside_box`, `C28_valid_fonts`.
*Axioms:* Classical.choice, Quot.sound, propext.

### C29 fixed-width detection (partial)

*Claim:* Font::width returns w exactly when every defined character of the font has width w (0 otherwise).
*For:* every font.

*How:* FALSE with unused slots (witness); true for full tables. Exact condition.

*Result:* Proved for fonts whose unused slots have the same width; false with ordinary unused slots of width 0 (C29_false). C29_iff gives the exact condition, C29_unused what unused slots do to it.

*Theorems:* Props/FontExact.lean: `C29_iff`, `C29_unused`; Props/Text.lean: `C29_width_sound`, `C29_width_partial`, `C29_false`.
*Axioms:* Classical.choice, Quot.sound, propext.

### C30 version ID depends only on content (proved)

*Claim:* Font::version_id ignores the name and unused character slots wherever they are; Graphic::version_id ignores the name; equal contents have equal IDs.
*For:* every pair of fonts / graphics.

*How:* equality of the serialisation.

*Result:* All fonts and graphics; little-endian hosts.

*Theorems:* Props/Text.lean: `C30_font_version_id`, `C30_graphic_version_id`.
*Axioms:* Classical.choice, Quot.sound, propext.

### C31 version ID detects local corruption (proved)

*Claim:* Two graphics (or two fonts) that differ only inside two adjacent bytes of their bitmap data (any 16-bit burst) always have different version IDs.
*For:* every bitmap, every position, every pair of values.

*How:* CRC step is a bijection of the 16-bit register; injectivity of two-byte feed.

*Result:* Any 16-bit burst in the bitmap data.

*Theorems:* Props/Oer.lean: `C31_graphic_burst`, `C31_graphic_byte`, `C31_font_burst`, `C31_font_byte`.
*Axioms:* Classical.choice, Quot.sound, propext.

### C32 version ID input is unambiguous (proved)

*Claim:* The byte string hashed into the version ID determines the content: two valid graphics (fonts) with the same byte string agree on every field but the name (and unused slots).
*For:* every pair of valid graphics / fonts.

*How:* a decoder is written and proved to invert the encoder.

*Result:* Injectivity of the hashed bytes on valid content.

*Theorems:* Props/Oer.lean: `C32_font_bytes`, `C32_graphic_bytes`, `C32_font_bytes_iff`.
*Axioms:* Classical.choice, Quot.sound, propext.

### C33 length and integer encoding decodes (proved)

*Claim:* Each OER length prefix / unsigned integer written decodes to the same value, whatever follows it, and uses the shortest form.
*For:* every u32 value and every following bytes.

*How:* decoder/encoder inverse.

*Result:* All lengths below 2^64 and u8/u16 values.

*Theorems:* Props/Oer.lean: `C33_length_decodes`, `C33_uint_decodes`, `C33_length_shortest`, `C33_uint_shortest`.
*Axioms:* Classical.choice, Quot.sound, propext.

### C34 tfon write/parse round trip (partial)

*Claim:* Parsing what tfon::write writes for a valid font gives the same font with unused slots moved to the end; write refuses invalid fonts.
*For:* every valid font.

*How:* over the tfon property sequence (the external crate's text layer is assumed to be lossless). Exact condition.

*Result:* Round trip proved for fonts with at least one character; false for fonts without (C34_false). The text layer of the tfon crate is not modelled. C34_empty and C34_round_trip_iff give the exact condition.

*Theorems:* Props/FontExact.lean: `C34_empty`, `C34_round_trip_iff`; Props/Tfon.lean: `C34_write_iff`, `C34_round_trip_partial`, `C34_false`.
*Axioms:* Classical.choice, Quot.sound, propext.

### C35 tfon parse is total (partial)

*Claim:* tfon::parse returns a font or an error for every input; it never panics.
*For:* every property sequence a .tfon file can contain.

*How:* FALSE: panics with more glyphs than the table (witness); exact condition proved. Exact condition by induction with the used slots as invariant.

*Result:* No panic proved when the input has at most C glyphs; otherwise it panics (C35_false). The text layer of the tfon crate is not modelled. C35_panic_iff and C35_ok_iff tell exactly which property sequences panic and which are accepted.

*Theorems:* Props/FontExact.lean: `C35_panic_iff`, `C35_ok_iff`; Props/Tfon.lean: `C35_no_panic_partial`, `C35_false`.
*Axioms:* Classical.choice, Quot.sound, propext.

### C36 graphic decoding (partial)

*Claim:* For a valid graphic, to_raster has the graphic's dimensions and each pixel is the bitmap value at row*width+column decoded by the graphic's type (MSB-first bit, byte, or B,G,R triple), transparent where it equals the transparent color; no index is out of bounds.
*For:* every valid graphic and pixel.

*How:* index bounds from validity; per pixel characterisation against a spec decoder. Exact description for all four graphic types.

*Result:* Dimensions, bounds and transparency proved for every valid graphic; decoding for 1-bit, classic and 24-bit graphics. False for monochrome 8-bit graphics, whose levels are shown as classic color numbers (C36_false). C36_exact tells the color of each pixel for every valid graphic, C36_level_iff for which levels of monochrome 8-bit graphics it is the right one.

*Theorems:* Props/Graphics.lean: `C36_decoding_partial`, `C36_no_panic`, `C36_false`; Props/GraphicsExact.lean: `C36_exact`, `C36_level_iff`.
*Axioms:* Classical.choice, Quot.sound, propext.

### C37 graphic placement (proved)

*Claim:* Rendering a graphic at (x,y) fails exactly when it would exceed the page; otherwise it changes only pixels in its own box, and transparent pixels keep the underlying color.
*For:* every valid graphic, page and position.

*How:* loop invariant over pixels.

*Result:* All valid graphics, pages, positions and color contexts.

*Theorems:* Props/Graphics.lean: `C37_too_big_iff`, `C37_placement`.
*Axioms:* Classical.choice, Quot.sound, propext.

### C38 1-bit graphics show in default colors (partial)

*Claim:* A monochrome 1-bit graphic rendered with default colors shows its lit pixels in the default foreground color and unlit ones in the default background color, on a sign of any color scheme.
*For:* every sign, 1-bit graphic.

*How:* FALSE for every scheme but 24-bit (theorem); TRUE for 24-bit.

*Result:* Proved on 24-bit signs; on all other signs a 1-bit graphic with default colors is invisible (C38_invisible, C38_false).

*Theorems:* Props/Graphics.lean: `C38_default_colors_partial`, `C38_invisible`, `C38_false`.
*Axioms:* Classical.choice, Quot.sound, propext.

### C39 page size (partial)

*Claim:* Every page produced by Pages (ON and OFF) has exactly the sign's pixel width and height.
*For:* every sign and MULTI string.

*How:* ON pages proved; OFF pages FALSE after a smaller [tr] (witness). Exact sizes: the text rectangle after a page is that of its last [tr].

*Result:* ON pages have the size of the sign (C39_on_page_size_partial, all messages), and so have all pages of a message without [tr] (C39_no_tr_partial). False for OFF pages after [tr]: they get the size of the last text rectangle (C39_off_page_false). C39_exact gives the sizes of all pages, ON and OFF, of every message without errors.

*Theorems:* Props/PageSize.lean: `C39_exact`; Props/Pages.lean: `C39_on_page_size_partial`, `C39_no_tr_partial`, `C39_off_page_false`.
*Axioms:* Classical.choice, Quot.sound, propext.

### C40 page times (proved)

*Claim:* An ON page lasts the page-on time in effect after its own [pt] tags; it is followed by an OFF page exactly when the page-off time is non-zero, lasting that time and blank in the page background color.
*For:* every sign and MULTI string.

*How:* the expected sequence of pages is computed by `Spec.schedule` from the parsed values; induction over the steps of the iterator.

*Result:* Kind, duration and, for OFF pages, color of all pages of a message without errors; the expected sequence is computed by Spec.schedule from the parsed values.

*Theorems:* Props/Pages.lean: `C40_page_times`.
*Axioms:* Classical.choice, Quot.sound, propext.

### C41 page count (proved)

*Claim:* If no error occurs, the number of ON pages is one more than the number of [np] tags and the iterator then ends.
*For:* every sign and MULTI string.

*How:* induction over pages.

*Result:* Count of ON pages (C41_page_count) and termination of runs without errors and panics (C41_ends).

*Theorems:* Props/Pages.lean: `C41_page_count`, `C41_ends`.
*Axioms:* Classical.choice, Quot.sound, propext.

### C42 unsupported tags are rejected (proved)

*Claim:* If a page contains an invalid item or a tag the sign does not support, rendering this page gives an error and no page.
*For:* every sign, tag set and MULTI string.

*How:* induction over items of a page.

*Result:* Per page (C42_rejected) and for whole messages (C42_message).  [f0] has no tag and is not caught by the check; it panics later (see C44).

*Theorems:* Props/Pages.lean: `C42_rejected`, `C42_message`, `C42_tag_name`, `C42_no_tag`.
*Axioms:* Classical.choice, Quot.sound, propext.

### C43 text stays in its rectangle (partial)

*Claim:* Rendering text changes only pixels inside the current text rectangle, which lies inside the page.
*For:* every sign and MULTI string.

*How:* the boxes of all texts are followed through offset_horiz/offset_vert; text rectangles are inside of the sign by an invariant of the iterator (Lemmas/States.lean); glyphs by C28.

*Result:* Text of every drawn page is inside of its text rectangle for all messages on a sign with valid fonts, unless a middle-justified page has character cells higher than the fonts; C43_false gives the two counterexamples (cell truncation with middle justification, default font number 0). C43_boxes, C43_inside_iff, C43_text_inside: without condition on fonts, a text is inside of its rectangle exactly unless it is in the vertical middle and sticks out at the top (Spec.SticksOut).

*Theorems:* Props/Inside.lean: `C43_boxes`, `C43_inside_iff`, `C43_text_inside`; Props/Layout.lean: `C43_rectangle_inside`, `C43_text_partial`, `C43_false`.
*Axioms:* Classical.choice, Quot.sound, propext.

### C44 rendering never panics (partial)

*Claim:* Iterating Pages returns pages or errors for any built sign and any MULTI string; no panic.
*For:* every built sign and MULTI string.

*How:* every panic of the code is an outcome of the model; an invariant on the state (Lemmas/Safe.lean, Fit.lean) excludes each of them under the hypotheses; a witness for each hypothesis.

*Result:* C44_no_panic_partial: any number of calls of Pages::next give pages or errors for every sign with valid tables, dimensions below 65535, default font from 1 on, supported default justifications, and every message without a tag on which the parser panics, without rectangles beyond 16 bits, without supported-but-unimplemented tags, with sizes in 16 bits (all messages up to 128 code points: sizesOk_short). C44_built_partial: the same for signs of the builder and ASCII messages. The full claim is false: C44_false has a built sign and a panic for each of these conditions. C93 has the exact condition, in both directions, without the conditions on tags.

*Theorems:* Props/Render.lean: `C44_no_panic_partial`, `C44_built_partial`, `C44_false`.
*Axioms:* Classical.choice, Quot.sound, propext.

### C45 oversize text is an error (partial)

*Claim:* If the spans of a line are wider than the text rectangle, or its lines are taller, rendering reports TextTooBig; text that fits is accepted.
*For:* every list of spans.

*How:* widths of lines and heights of blocks are specified as sums (Spec/Layout.lean); both directions of the comparison.

*Result:* C45_drawn: text that is drawn fits (every sign, every list of spans). C45_fits_partial, C45_too_big_partial: both directions for spans whose fonts and characters are defined and within u16 (Spec.Sound), lines dense as produced by [nl], middle-justified text on character cells only under the cell condition. The full claim is false (C45_false): after a [jp] change followed by [nl] a line of two texts is counted twice, and sums of 65536 or more panic. C45_exact: the true law for texts of one rectangle with defined fonts and characters and no panic, with or without lines counted twice: drawn iff every line fits the width and the total height as counted (Spec.totalHeight) fits the height, otherwise TextTooBig.

*Theorems:* Props/Iff.lean: `C45_exact`; Props/Layout.lean: `C45_fits_partial`, `C45_too_big_partial`; Props/Oversize.lean: `C45_drawn`, `C45_false`.
*Axioms:* Classical.choice, Quot.sound, propext.

### C46 justification geometry (proved)

*Claim:* On a full-matrix sign, a single left span starts at the left edge, a right span ends at the right edge, a centered span has left and right margins differing by at most one pixel; same vertically for top/bottom/middle.
*For:* every span, font and rectangle.

*How:* closed forms of the offsets.

*Result:* All spans, fonts and rectangles on signs without character cells.

*Theorems:* Props/Layout.lean: `C46_horizontal`, `C46_vertical`.
*Axioms:* Classical.choice, Quot.sound, propext.

### C47 justification order (partial)

*Claim:* Spans whose page justification goes backwards, or whose line justification goes backwards within a line, are rejected with TagConflict, and only those.
*For:* every list of spans.

*How:* adjacent-pair characterisation of check_justification, lifted to all pairs where the order is transitive.

*Result:* Exact for adjacent spans and for page justification; within a line when line numbers do not decrease. C47_false: a message that goes back to line 0 by changing the page justification twice is accepted.

*Theorems:* Props/Layout.lean: `C47_adjacent`, `C47_rejected`, `C47_page`, `C47_line_partial`, `C47_only_those`, `C47_false`.
*Axioms:* Quot.sound, propext.

### C48 text rectangle acceptance (partial)

*Claim:* A [tr] tag is accepted exactly when, after extending zero width/height to the sign edge, the rectangle is non-empty, lies inside the sign and is aligned to the character cells; otherwise UnsupportedTagValue.
*For:* every sign and rectangle.

*How:* iff against `TextRect` (inside of the sign, edges at character cells).

*Result:* Exact for every rectangle without u16 overflow; C48_overflow: all others panic. Sign of 0 by 0 pixels excluded.

*Theorems:* Props/Layout.lean: `C48_accepted_partial`, `C48_overflow`, `C48_false`.
*Axioms:* Classical.choice, Quot.sound, propext.

### C49 color rectangle fill (partial)

*Claim:* A [cr] tag paints exactly the pixels of its rectangle (zero width/height extended to the page edge) with its color, or is rejected with UnsupportedTagValue if not inside the page.
*For:* every page, rectangle and color.

*How:* per-pixel characterisation.

*Result:* Exact pixels for every rectangle without u16 overflow, which is a panic (C49_false).

*Theorems:* Props/Layout.lean: `C49_fill_partial`, `C49_tag`, `C49_false`.
*Axioms:* Classical.choice, Quot.sound, propext.

### C50 page iterator ends (partial)

*Claim:* Pages yields finitely many items for every message, also when rendering fails.
*For:* every sign and MULTI string.

*How:* finite without errors: each ON page consumes items; FALSE after an error of check_unsupported (witness: the error repeats forever). Dichotomy for all messages: the rest of the message shrinks, or the state does not change any more.

*Result:* Bound for runs without errors (C50_ends_partial). False after errors: the same error is repeated forever (C50_error_forever, C50_false). C50_dichotomy holds for all messages: the items end within 2(n+1), n being the number of items of the message, or after at most 2(n+1)+1 all are the same error. C50_text_ends_partial names messages which always end; C50_after_error shows the three courses after an error. C50_ends_iff: without panics, the iterator ends exactly when no page reached has an early fault (item, background color, or color, color rectangle or graphic before the first text rectangle); C50_forever: such an error is repeated; C50_shown_ends_partial: messages of valid, supported items with colors and graphics the sign can show always end, whatever the errors of their texts.

*Theorems:* Props/Endless.lean: `C50_ends_iff`, `C50_forever`, `C50_shown_ends_partial`; Props/Ends.lean: `C50_dichotomy`, `C50_text_ends_partial`, `C50_after_error`; Props/Pages.lean: `C50_ends_partial`, `C50_error_forever`, `C50_false`.
*Axioms:* Classical.choice, Quot.sound, propext.

### C51 text rectangle limit (proved)

*Claim:* A page with at most 49 [tr] tags is never rejected for their number; a page with 50 or more is rejected.
*For:* every page.

*How:* loop counter induction.

*Result:* C51_rejected: 50 or more; C51_accepted and C51_message: at most 49.

*Theorems:* Props/Pages.lean: `C51_rejected`, `C51_accepted`, `C51_message`.
*Axioms:* Classical.choice, Quot.sound, propext.

### C52 monochrome signs show two colors (proved)

*Claim:* On a monochrome 1-bit sign without 24-bit graphics, every pixel of every page is the sign's foreground or background color.
*For:* every such sign and MULTI string.

*How:* colour invariant of the raster.

*Result:* Every item of every run, also after errors.

*Theorems:* Props/Pages.lean: `C52_two_colors`.
*Axioms:* Classical.choice, Quot.sound, propext.

### C53 render state carry-over (proved)

*Claim:* At the start of each page the text rectangle and line spacing are back to default, while page times, colors, font, justification and character spacing stay as the previous page left them.
*For:* every sign and MULTI string.

*How:* projection equations of the page step.

*Result:* C53_carry: attributes, background and times are folds over everything rendered; C53_reset: the rest has no influence on the next page.

*Theorems:* Props/Pages.lean: `C53_carry`, `C53_reset`.
*Axioms:* Classical.choice, Quot.sound, propext.

### C54 lines returns one entry per fillable line (proved)

*Claim:* MessagePattern::lines(ms) returns either nothing (no match) or exactly as many entries as MessagePattern::widths.
*For:* every sign, pattern and message.

*How:* `lines` and `widths` are shown to walk the same areas; counting invariant.

*Result:* For every sign, pattern and message, valid or not, for which neither call panics.

*Theorems:* Props/Pattern.lean: `C54_lines_count`.
*Axioms:* Quot.sound, propext.

### C55 widths enumerates fillable rectangles (partial)

*Claim:* widths groups lines by rectangle, numbers the rectangles 0,1,2,... in order, and gives each line the width of its rectangle and a font number in effect there.
*For:* every sign and pattern.

*How:* induction over pattern iteration against a spec that cuts the pattern into areas (Spec/Pattern.lean).

*Result:* Exact description of widths (rectangles, numbers, width, font number) for patterns in which no item panics, on signs that support [np] (without: C60). C55_false: a pattern with 256 fillable pages overflows the u8 rectangle number. C55_ok_iff: widths are given exactly when no item panics, there are at most 255 fillable areas and their rectangles have lines.

*Theorems:* Props/Iff.lean: `C55_ok_iff`; Props/Pattern.lean: `C55_widths_partial`, `C55_total_partial`, `C55_false`.
*Axioms:* Classical.choice, Quot.sound, propext.

### C56 fill then lines round-trips (partial)

*Claim:* Filling a valid pattern with lines of plain text and extracting with lines(..) returns these lines, padded with empty lines (or cut) to the number of fillable lines.
*For:* every sign, valid pattern and list of text lines.

*How:* `fill` is shown to give a concatenation of canonical tokens, which are read back one by one (re-tokenisation), area by area.

*Result:* For valid patterns on signs that support [np], lines that consist of text, [cf], [jl] and [sc] tags, when dropping the font tags does not bring texts together and hexadecimal characters are single digits. C56_false, C56_hc_false: witnesses without these hypotheses.

*Theorems:* Props/Pattern.lean: `C56_round_trip_partial`, `C56_fonts_partial`, `C56_false`, `C56_hc_false`.
*Axioms:* Classical.choice, Quot.sound, propext.

### C57 fill keeps the pattern (partial)

*Claim:* The output of fill contains all tags and texts of a valid pattern in order, font tags included; a pattern without fillable area is returned in canonical form.
*For:* every sign and valid pattern.

*How:* same: what is written for each area.

*Result:* All tags and texts but font tags are kept in order (all valid patterns); font tags too when they are at the end of fillable areas; canonical form when nothing is fillable and there are no font tags. C57_false: font tags are dropped, merged or moved otherwise. Signs that support [np]. C57_exact: the true law for every valid pattern: what fill gives is exactly the text described by Spec.Filled (areas, lines, font tags put off), and nothing else is.

*Theorems:* Props/Iff.lean: `C57_exact`; Props/Pattern.lean: `C57_kept_partial`, `C57_fonts_partial`, `C57_canonical_partial`, `C57_false`.
*Axioms:* Classical.choice, Quot.sound, propext.

### C58 fill rejects invalid patterns (partial)

*Claim:* fill returns an empty string whenever the pattern contains an invalid item or a tag the sign does not support, and only then can a non-empty pattern give an empty string.
*For:* every sign and pattern.

*How:* same; an invalid item makes `fill` give the empty string.

*Result:* First half for all signs and patterns; second half for signs that support [np]. C58_false: on other signs every pattern gives an empty string.

*Theorems:* Props/Pattern.lean: `C58_invalid`, `C58_nonempty_partial`, `C58_false`.
*Axioms:* Classical.choice, Quot.sound, propext.

### C59 fill respects capacity (proved)

*Claim:* fill writes at most the number of fillable lines, taken in order from the given lines, separated by [nl] within a rectangle.
*For:* every sign, pattern and list of lines.

*How:* exact output of `fill` as a function of the areas and lines.

*Result:* Exact output of fill for valid patterns on signs that support [np] (on other signs fill writes nothing, C60); lines beyond the capacity have no influence.

*Theorems:* Props/Pattern.lean: `C59_filled`, `C59_capacity`.
*Axioms:* Classical.choice, Quot.sound, propext.

### C60 patterns work on single-page signs (partial)

*Claim:* widths, fill and lines treat the implicit first page as fillable on signs that do not support [np].
*For:* every sign without [np] support.

*How:* FALSE (theorem: fill always returns the empty string on such signs).

*Result:* False: on every sign without [np], fill returns nothing for every pattern (C60_fill_false) and the blank page is not fillable (C60_blank_false). C60_widths_partial: widths enumerates all areas but the last.

*Theorems:* Props/Pattern.lean: `C60_fill_false`, `C60_blank_false`, `C60_widths_partial`.
*Axioms:* Classical.choice, Quot.sound, propext.

### C61 normalize removes only invalid characters from text (partial)

*Claim:* As documented, normalize removes just the invalid characters (outside U+0001..U+00FF) from a text span and keeps the valid ones.
*For:* every text span.

*How:* case analysis of normalize for one item; FALSE for single characters (witness).

*Result:* A span is kept whole or dropped whole; the documented removal of single characters is false (C61_false).

*Theorems:* Props/Escape.lean: `C61_span_partial`, `C61_false`.
*Axioms:* Classical.choice, Quot.sound, propext.

### C62 texts of a line are side by side (partial)

*Claim:* Texts on one line are drawn side by side in the order of the message: a later text starts at or after the end of an earlier one, and neighbours are apart by exactly the character spacing in effect.
*For:* every sign, message and pair of texts on a line.

*How:* places of texts as sums of widths before them on the line (`AtX`, Spec/Place.lean); the code's positions are shown to be these; disjointness by arithmetic.

*Result:* Proved for text rectangles with tidy values (justification from left to right on a line), for texts with one justification. The full claim is false: C62_false (redundant [jl] tag, left against right text).

*Theorems:* Props/Place.lean: `C62_side_by_side_partial`, `C62_false`.
*Axioms:* Classical.choice, Quot.sound, propext.

### C63 lines are stacked (partial)

*Claim:* Lines of a text rectangle do not overlap: a later line is drawn below an earlier one, consecutive lines being apart by exactly the line spacing of the [nl] tag or of the fonts.
*For:* every sign, message and pair of lines.

*How:* same for lines (`AtY`).

*Result:* Proved for text rectangles with tidy values, for lines with one page justification. The full claim is false: C63_false ([jp] followed by [nl], top against bottom text).

*Theorems:* Props/Place.lean: `C63_stacked_partial`, `C63_false`.
*Axioms:* Classical.choice, Quot.sound, propext.

### C64 text is drawn exactly (proved)

*Claim:* The spans drawn for a text rectangle are the texts of the message up to the next [np] or [tr], each with the attributes, line and color the preceding tags set, and on the page exactly the pixels of their characters, at their places, change to their colors.
*For:* every sign with valid fonts, every message.

*How:* the texts of a section are a function of its values (`pieces`, Spec/Section.lean), independent of the renderer's loop; drawing is shown to change exactly the pixels of the glyphs, once each.

*Result:* For every message: the list of texts with attributes and lines (C64_pieces), each drawn once (C64_drawn_once), at the place of its line and number (C64_places, ExactX and ExactY), exactly the pixels of its characters change to its color. For tidy values these are the places of C62 and C63 (C64_tidy); in others texts may overlap (C62_false, C63_false).

*Theorems:* Props/Exact.lean: `C64_drawn_once`; Props/Picture.lean: `C64_places`; Props/Place.lean: `C64_tidy`, `C64_pieces`.
*Axioms:* Classical.choice, Quot.sound, propext.

### C65 version IDs are honoured (proved)

*Claim:* A page is rendered only if every text on it uses a font of the table which has all its characters and, when the [fo] tag gives a version ID, this version ID; and every [g] tag names a graphic of the table which has the given version ID, if any.
*For:* every sign with valid tables, every message and page.

*How:* induction over the items of a page; FontOf and GraphicOf are specified with version IDs.

*Result:* For every ON page that next gives without earlier errors: all fonts, characters and graphics it needs exist, with the version IDs the tags give.

*Theorems:* Props/Version.lean: `C65_version_ids`.
*Axioms:* Classical.choice, Quot.sound, propext.

### C66 pages are composed in order (proved)

*Claim:* A rendered page is the background color (last one set on the page or before), and for each text rectangle in turn its color rectangles and graphics in message order, with its text drawn over them; nothing else changes a pixel.
*For:* every sign with valid tables, every message and page.

*How:* a page as layers: `Composed` (Spec/Compose.lean) for the text rectangles of a page (`sections`), `Layered` for graphics and rectangles, `TextDrawn` for texts; induction over the loop of render_on_page.

*Result:* For every ON page that next gives without earlier errors: background, color rectangles, graphics, text rectangles in order, every text drawn once, at the place given by its number and line (ExactX, ExactY).

*Theorems:* Props/Compose.lean: `C66_page`, `C66_graphics`.
*Axioms:* Classical.choice, Quot.sound, propext.

### C67 messages a sign can show are rendered, others are not (proved)

*Claim:* Let the tags of each page be in order (justification left to right and top to bottom, at most 255 values, and fonts of text in the vertical middle that fill character cells). Then the page is rendered exactly when it is well formed, all its tags are supported and implemented, colors are of the color scheme, rectangles and graphics lie inside of the sign, text rectangles are at the edges of character cells and fewer than 50, fonts and characters are defined, each line is not wider than its rectangle, and the lines are not higher; and all pages of the message are rendered without error exactly when this holds for all of them.
*For:* every sign with valid tables and defaults, every message with tags in order, every page.

*How:* `PageOk` (Spec/Accept.lean) says what a sign can show, from values, tables and sums of widths and heights only; soundness and completeness of each loop; induction over pages for messages.

*Result:* Both directions, for one page at any time before an error (C67_page_iff) and for whole messages (C67_message_iff). Pages out of order and pages of more than 255 values are outside of the claim: for the panics there see C44, for the order of justification C47.

*Theorems:* Props/Accept.lean: `C67_page_iff`, `C67_message_iff`.
*Axioms:* Classical.choice, Quot.sound, propext.

### C68 rectangles are sets of pixels (partial)

*Claim:* The intersection of two rectangles covers exactly the pixels both cover, and a rectangle contains another exactly if all pixels of the other are in it.
*For:* every two rectangles.

*How:* `Covers` says when a pixel is in a rectangle; 16 bit arithmetic is shown not to wrap when the edges fit, the rest is linear arithmetic.

*Result:* For rectangles whose right and bottom edges fit in 16 bits, in either build profile. Missing: others, where the full claim is false (C68_false: a panic with overflow checks, an empty intersection without). contains of a rectangle without pixels is compared by its edges. C68_intersection_panics_iff, C68_contains_panics_iff: exactly when they panic.

*Theorems:* Props/Rects.lean: `C68_intersection_partial`, `C68_contains_partial`, `C68_intersection_panics_iff`, `C68_contains_panics_iff`, `C68_false`.
*Axioms:* Classical.choice, Quot.sound, propext.

### C69 byte offsets of the MULTI iterator are at item boundaries (proved)

*Claim:* The iterator over a MULTI string gives its items in order and never panics; after each of them its byte offset is the number of bytes taken, so that splitting the string there gives exactly the items before and after; at the end it stays at the end.
*For:* every string, with any characters, after any number of items.

*How:* `Takes` is repeated `next_slice` on the iterator with byte offsets; each step is shown equal to that of the character based model, with the offset the number of bytes of the prefix; induction over items.

*Result:* The iterator is modelled again with its byte offset (Model/MultiStr.lean) and shown to agree with the item based functions the rest of the model uses.

*Theorems:* Props/Bytes.lean: `C69_offsets`, `C69_end`.
*Axioms:* Classical.choice, Quot.sound, propext.

### C70 a font file is read as it is (proved)

*Claim:* Reading a font file which fits the table gives the font it describes: last name, number and spacings given, one character for each bitmap with the code point before it, in order, and the height of the bitmaps; files with bitmaps of different heights are refused. The font is valid exactly if the file gives a number, a height, different code points and bitmaps of their size.
*For:* every property sequence with no more characters than the table has slots.

*How:* `fontIn` (Props/FontFile.lean) is the font a file describes, by filters and one scan for code points; the loop is shown equal to it from any state by induction over the properties.

*Result:* The text layer of the tfon crate is not modelled (see C34). Bitmaps of height 0 at the begin of a file are not noticed by the height check; C70_heights excludes them, C70_parse does not. Files with more characters than slots are the subject of C35. C70_name: the name is the longest beginning of the last name given (without NUL) that fits 64 bytes.

*Theorems:* Props/FontFile.lean: `C70_parse`, `C70_name`, `C70_heights`, `C70_valid`.
*Axioms:* Classical.choice, Quot.sound, propext.

### C71 normalizing a message does not change its pages (partial)

*Claim:* A sign shows the normalized form of a message exactly like the message itself: same pages, with the same durations and the same color of every pixel.
*For:* every sign and every message.

*How:* Simulation (Lemmas/Drops.lean): `Drops` relates item lists of which wrong items and repeated tags are removed; each loop of the renderer gives the same result on both, as the tracked last tags agree with the state of the renderer. Refuted in general by comparing all pixels for five messages. For C71_tidy_partial, the normalized message is a rewriting in the sense of C81 (`dedup_rewrites`).

*Result:* Two partial theorems, both for messages rendered without errors, ending in something visible, without [hc] of two or more digits. C71_tidy_partial: messages whose values are in order, also with removed tags between texts, if no character has width 0 and (on signs with character cells) no text is centered. C71_pages_partial: also values not in order, if no [jl] is repeated after text and no removed tag stands between two texts. In general the claim is false (C71_false): trailing [np] and [pb] are dropped, [hc41] becomes [hc65], a repeated [jl2] makes texts overlap before but not after normalizing, and joined centered texts are aligned to cells together. C71_joined_false: with texts that overlap because a tag repeats the justification in effect, joining two of them moves one.  Missing: joined texts in other messages that are not in order.

*Theorems:* Props/Look.lean: `C71_tidy_partial`; Props/Same.lean: `C71_pages_partial`, `C71_false`, `C71_joined_false`.
*Axioms:* Classical.choice, Quot.sound, propext.

### C72 filled patterns are shown (partial)

*Claim:* When a sign renders a pattern without errors, it also renders without errors the message made by filling in lines of text that are not wider than the widths told for the pattern, in the fonts told.
*For:* every sign, every pattern it renders, and all lines that fit.

*How:* From pages to text rectangles and back (Lemmas/Walk.lean), induction over the areas of the pattern: the values of the filled message are those of the pattern with texts and [nl] in the fillable areas (Lemmas/Shown.lean: these fit by C26 and C27), then C67 in both directions. Refuted in general by four patterns.

*Result:* Proved for signs that are valid with all font heights multiples of the cell height, and valid patterns in order (as for C67) without [sc] and [hc] tags, with font tags only at the end of fillable areas and right version IDs, and at most 255 values after filling. The claim is false (C72_false) with [sc] (widths ignore it), [hc] (no text for fill), font tags before text (dropped by fill) and wrong version IDs (not noticed before there is text).

*Theorems:* Props/Shown.lean: `C72_shown_partial`, `C72_false`.
*Axioms:* Classical.choice, Quot.sound, propext.

### C73 written images read back (partial)

*Claim:* The image writer of the examples writes a BMP file from which a reader gets the raster back: headers with the size of the image and of the file, and every pixel in its color at its place.
*For:* every raster.

*How:* bytes of the file modelled (Model/Bmp.lean); reader written from the file format (Spec/Bmp.lean); concatenation of blocks of equal length; the size of the file FALSE when rows are filled up (exact condition and witness).

*Result:* Headers, number of bytes and every pixel read back, for every raster whose size fits 32 bits; larger ones are a panic (C73_overflow). The file size told by the header is right exactly if the width is a multiple of 4 (C73_size_iff, C73_false).

*Theorems:* Props/Bmp.lean: `C73_writes_partial`, `C73_file_partial`, `C73_pixels_partial`, `C73_outside`, `C73_size_iff`, `C73_false`, `C73_overflow`.
*Axioms:* Classical.choice, Quot.sound, propext.

### C74 only fonts, graphics, tags and settings in use matter (proved)

*Claim:* The pages, errors and panics of a message depend only on the fonts and graphics that it uses (the default font, and those named by tags), on which of its tags are supported, and on the size, character cells, colors, default font, justification and page times of the sign: adding, removing, replacing or reordering other fonts and graphics, supporting other tags, or other settings change nothing. The same holds for widths, filling and lines of patterns.
*For:* every message and pattern, and all pairs of signs agreeing in what is named, with unique numbers and a default font.

*How:* Two runs side by side (Lemmas/Local.lean): each function of the renderer gives the same for both signs when the tables agree on a set of numbers and the supported tags on a set of tags, and the state only holds members of these sets; invariant over all pages. Which entry a number finds is taken from C24, so the order does not matter. Patterns alike, over their items. C74_more_tags uses C42: in a message without error all tags are supported.

*Result:* Numbers must be unique and the default font not 0, as validation of tables requires; C74_store_font is about tables changed through font_mut. C74_settings shows that the limits of a sign (pages, length of messages) are not enforced.

*Theorems:* Props/Local.lean: `C74_unused`, `C74_order`, `C74_store_font`, `C74_settings`, `C74_more_tags`, `C74_pattern`.
*Axioms:* Classical.choice, Quot.sound, propext.

### C75 larger signs show what smaller ones show (proved)

*Claim:* A message which a sign shows without errors is shown without errors by every larger sign that is otherwise alike: as many pages, ON and OFF alike, for the same times.
*For:* every message, every sign, and every larger sign of whole character cells.

*How:* Two runs side by side (Lemmas/Larger.lean): after each step the rectangle of the larger sign contains or equals that of the smaller one, spans and colors are the same; every check that succeeds on the smaller sign succeeds on the larger one.

*Result:* The larger sign must have whole character cells (C75_cells: validation does not require it, and [tr1,1,0,0] is then refused) and less than 65535 pixels per side (C75_limit).

*Theorems:* Props/Larger.lean: `C75_steps`, `C75_larger`, `C75_cells`, `C75_limit`.
*Axioms:* Classical.choice, Quot.sound, propext.

### C76 colors of a sign only recolor its pages (proved)

*Claim:* Signs that differ only in their colors (default colors, LEDs) show a message alike: same errors, as many pages, for the same times, and at each place both pixels have the default foreground color of their sign, or both the background color, or both are what their sign shows for the same color value. For messages without color tags and graphics the color schemes may differ too.
*For:* every message, and all pairs of signs that are alike but for their colors.

*How:* Two runs side by side (Lemmas/Recolor.lean): a relation between color contexts is kept by all tags, everything else in the state is equal, and every drawing function keeps the relation between pixels. Instantiated twice: constant contexts for messages without colors (any schemes), equal or both default colors for signs of one scheme.

*Result:* C76_scheme is about all messages on signs of one color scheme; 24-bit graphics only on 24-bit signs (elsewhere they keep their colors, C52). C76_text is about all schemes; with color tags signs of other schemes may give errors (C76_tags).

*Theorems:* Props/Recolor.lean: `C76_text`, `C76_scheme`, `C76_monochrome`, `C76_tags`.
*Axioms:* Classical.choice, Quot.sound, propext.

### C77 moving rectangles and graphics moves the picture (partial)

*Claim:* If all text rectangles, color rectangles (with sizes) and graphics of a message are moved by the same displacement and stay inside of the sign, and all text is in text rectangles, then the message is shown as before: as many pages, for the same times, and every pixel has the color of the pixel it comes from.
*For:* every message, every displacement, every sign.

*How:* Two runs side by side (Lemmas/Move.lean): the messages have the same values but for positions. Offsets within a rectangle do not depend on its corner; rounding to character cells commutes with moving because corners are at cell edges. Text, color rectangles and graphics paint exactly known pixels (C64, C49, C37), so the pages stay moved copies of each other.

*Result:* C77_moved_partial is for signs whose font heights are whole character cells (always so without character cells). Otherwise centered text may be above its rectangle, which panics at the top of the sign (C77_false). Rectangles must have a size (C77_sizes).

*Theorems:* Props/Move.lean: `C77_steps_partial`, `C77_moved_partial`, `C77_false`, `C77_sizes`.
*Axioms:* Classical.choice, Quot.sound, propext.

### C78 only the values of a message matter (proved)

*Claim:* Two messages whose items have the same values (whatever the spelling of the tags: upper or lower case, leading zeros, signs) have the same pages, errors and panics on every sign; patterns with the same values have the same widths, are filled alike, and find the same lines in messages.
*For:* every pair of messages with the same values, every sign.

*How:* Two runs side by side over messages whose items parse to the same values (Lemmas/Denote.lean): each loop of the renderer looks at an item only through its value. C78_spelling puts a tag between any two strings by cutting the message there; C78_case adds the case folding of C05.

*Result:* Pages, errors and panics of a message, and widths, fill and lines of a pattern, are functions of the values of its items. C78_case is the consequence for upper and lower case.

*Theorems:* Props/Denote.lean: `C78_pages`, `C78_yields`, `C78_patterns`, `C78_spelling`, `C78_case`.
*Axioms:* Classical.choice, Quot.sound, propext.

### C79 appended pages do not change earlier ones (proved)

*Claim:* When a page break and more text are appended to a message, the pages of the message are shown first, unchanged; and if the message leaves all attributes (font, justification, character spacing, colors, page times) at the defaults of the sign, then what is appended is shown as if it was a message of its own.
*For:* every pair of messages, every sign supporting page breaks.

*How:* Two simulations (Lemmas/Append.lean): a run over a message and over the message with more behind a page break agree until the first one is done; and two states at the start of a page that differ only in what is reset there show the same from then on. C53 tells the attributes at the page break.

*Result:* C79_earlier also holds for messages with errors; C79_appended needs the attributes after the message to be the defaults, C79_joined is for messages without attribute tags.

*Theorems:* Props/Append.lean: `C79_earlier`, `C79_appended`, `C79_joined`.
*Axioms:* Classical.choice, Quot.sound, propext.

### C80 blank messages show blank pages (proved)

*Claim:* A message that is_blank accepts, on a sign whose white space characters have no lit pixels, shows only blank pages: every pixel of every page has the background color of this page.
*For:* every message accepted by is_blank, every sign with valid fonts and graphics whose white space characters are clear.

*How:* C66 gives each ON page as a composition of graphics and texts; values that are not visible paint nothing (`graphicsOn_blank`, `textDrawn_blank`); then induction over the pages as for C40.

*Result:* C80_blank: pages are those of the schedule of C40 (kind, duration), all pixels have the background color of the page; ON pages have the size of the sign.  Hypothesis: white space characters of the fonts have no lit pixels (otherwise the claim is false).

*Theorems:* Props/Blank.lean: `C80_blank`.
*Axioms:* Classical.choice, Quot.sound, propext.

### C81 the look of a message determines its pages (proved)

*Claim:* The look of a message lists, per page, its times, its background, and per text rectangle the graphics and rectangles painted and the texts with their attributes, adjacent texts of the same attributes as one.  A message whose values are in order is accepted exactly when its values can be shown and the texts of its look fit; its pages then are the only picture of its look.  So messages of the same look show the same pages: tags that set an attribute to what it is already may be left out, texts may be split or joined, characters may be written as hexadecimal.
*For:* every message whose values are in order, every sign with valid fonts and graphics whose characters all have a positive width; joined texts are not centered on signs with character cells.

*How:* `lookOf` and `Depicts` (Spec/Look.lean) define look and picture without the renderer.  Induction over the pages with C62, C63, C66 (Lemmas/Depict.lean); joining of texts is shown sound for widths, positions and pixels (Lemmas/Join.lean, Lemmas/Look.lean); rewriting keeps the look (Lemmas/Rewrite.lean).

*Result:* C81_accepted_iff: when accepted.  C81_pictures and C81_one_picture: the pages are the unique picture of the look.  C81_same_look, C81_rewritten: messages of the same look show the same pages.  C81_zero_width shows that the claim is false with characters of width 0, as the code adds no character spacing in a text while its width is 0.

*Theorems:* Props/Look.lean: `C81_pictures`, `C81_accepted_iff`, `C81_one_picture`, `C81_same_look`, `C81_rewritten`, `C81_zero_width`.
*Axioms:* Classical.choice, Quot.sound, propext.

### C82 release builds show the same (partial)

*Claim:* Release builds, which do not check arithmetic for overflow, show the same pages, and give the same errors, as builds with overflow checks; where the latter panic, release builds give an error and show nothing wrong.
*For:* every sign and every message.

*How:* Model/Release.lean has the functions of the renderer with wrapping arithmetic and without debug_assert!; Lemmas/Release.lean shows for each of them that it refines the checked one (`RLe`, `OLe`).

*Result:* C82_same_partial, C82_iff_partial, C82_no_panic_partial, C82_widths_partial: equal results whenever a build with overflow checks does not panic, so all claims on pages hold for release builds, too.  C82_panics: no additional panics.  C82_text_rectangles, C82_color_rectangles: rectangles whose edges overflow are rejected.  The rest of the claim is false (C82_false): a text more than 65535 pixels wide is accepted and drawn at a wrong place, as its width wraps around.  Rectangles off the sign, where the overflow is caught, are covered exactly by C109.  Missing: what else happens after other overflows (sums of widths or heights over 65535, more than 255 lines or texts).

*Theorems:* Props/Release.lean: `C82_same_partial`, `C82_iff_partial`, `C82_no_panic_partial`, `C82_panics`, `C82_widths_partial`, `C82_text_rectangles`, `C82_color_rectangles`, `C82_false`.
*Axioms:* Classical.choice, Quot.sound, propext.

### C83 errors tell of a fault of the message (partial)

*Claim:* Each error of the renderer tells of a fault that the page has: UnsupportedTag and UnsupportedTagValue name an item that is no valid tag, a tag that the sign does not support, or a value it can not show; GraphicNotDefined, FontNotDefined and CharacterNotDefined name what is missing in the tables of the sign; GraphicID and FontVersionID are given for a version that differs from the table; TagConflict is given only for adjacent texts whose justifications go backwards; TextTooBig only for a line wider than its text rectangle, or lines that are together higher than it; "Graphic too big" and "Too many text rectangles" as they say.
*For:* every message, every page, every sign that has pixels and less than 65535 rows and columns; also errors that come after other errors.

*How:* Spec/Fault.lean defines, for each error, the fault of a page, with the specifications of values, layouts and text rectangles of C67.  Lemmas/Fault.lean inverts each function of the renderer at its error results.

*Result:* C83_error_partial: each error (also after other errors) is that of a fault of the page; C83_first_partial: the same for the first error, with the attributes that the values before the page set; C83_tidy: without exception if the page is in order.  C83_kinds: the errors that are given at all.  The full claim is false (C83_false): TextTooBig is given for text that fits, if the lines of a page justification are not numbered without gaps, as offset_vert counts lines twice.

*Theorems:* Props/Fault.lean: `C83_error_partial`, `C83_first_partial`, `C83_tidy`, `C83_kinds`, `C83_false`.
*Axioms:* Classical.choice, Quot.sound, propext.

### C84 the grammar of MULTI (proved)

*Claim:* An item of a message is valid exactly if the grammar of MULTI has it, and then it has the value that the grammar gives it: `[[` and `]]` are brackets; tags are a name in upper or lower case and its parameters - numbers with or without `+` and leading zeros within the range of their type, separated by commas, optional parameters, versions of 4 hexadecimal characters, times of [pt] and [fl] with `o` and `t` between them, justifications as digits, free text of [ms] and [mv]; anything else without a bracket at its beginning is text, if all its characters are U+0001 to U+00FF.  The grammar is not ambiguous.
*For:* every string as item, every message, every value.

*How:* Spec/Grammar.lean has one rule for each form of a tag, with relations for digits, numbers, colors, points and rectangles; Lemmas/Grammar.lean shows for each parser that it decides its relation; `tagIs_body` and `body_tagIs` are the two directions for the tags.

*Result:* C84_item: acceptance and value of every string, exactly.  C84_unique and C84_meaning: the grammar of items and messages is not ambiguous.  C84_message: the values of a message.  Of note: versions may be `+` and 3 digits, `[f13,]` and `[pt3o]` have empty parameters, `[nl]` takes a single digit without sign.

*Theorems:* Props/Grammar.lean: `C84_item`, `C84_unique`, `C84_message`, `C84_meaning`.
*Axioms:* Classical.choice, Quot.sound, propext.

### C85 text on character cells (proved)

*Claim:* On a sign filled by its character cells, text in fonts made for the cells (characters as wide and high as a cell, no spacing) is drawn cell by cell: whatever the message, its justification, text rectangles and line breaks, every character is in a cell of its own text rectangle, characters of a text follow each other cell by cell, and a pixel changes exactly if it is lit in the bitmap of the character of its cell.
*For:* every message, every sign whose size is a multiple of the cell size, every text rectangle of every page drawn in fonts made for the cells.

*How:* Spec: a pixel is lit if it is lit in the character of its cell (LitInCell, by division of the coordinates).  Lemmas/Cells.lean: edges of texts are multiples of the cell size, from the invariant that text rectangles are made of cells and that [sc] cannot add spacing; then the pixels of C64 are those of the cells.

*Result:* C85_cells.  C85_unchecked: the condition on fonts is needed, the sign builder accepts other fonts, and then text is not at cells.

*Theorems:* Props/Cells.lean: `C85_cells`, `C85_unchecked`.
*Axioms:* Classical.choice, Quot.sound, propext.

### C86 no color that was not asked for (proved)

*Claim:* Every pixel of every page (ON or OFF) has a color that was asked for: a default color of the sign, the color of a color tag of the message as the sign's color scheme shows it, or the color of a pixel, which is not transparent, of a graphic of the message. In particular a message without color tags and color graphics shows the two default colors on every sign; an 8-bit sign shows its levels and a classic sign the ten classic colors besides the default colors.
*For:* every sign with valid fonts and graphics, every message, every page without an error before it, every pixel.

*How:* Spec: Asked, from the values of the items by the grammar of C84 (HasValue, ColorTag), colorValue and the pixels of graphics.  From C66_page by induction on the layers, the text and the sections of a page; OFF pages by C53_carry.

*Result:* C86_asked, C86_plain, C86_scheme.  C86_foreign: a 24-bit graphic shows its colors on monochrome signs, and the sign is built without complaint.

*Theorems:* Props/Asked.lean: `C86_asked`, `C86_plain`, `C86_scheme`, `C86_foreign`.
*Axioms:* Classical.choice, Quot.sound, propext.

### C87 build errors tell the first fault (proved)

*Claim:* If building a sign fails, the error tells of a fault the given configuration really has, and of the first one in a fixed order: dimensions, page configuration, fonts (the first invalid font with its first fault, then font numbers used twice), graphics likewise; conversely each such fault is reported. Errors InvalidNumber and TooBig are never given.
*For:* every configuration, font table and graphic table.

*How:* Spec: faults as inductive predicates (FontFault, GraphicFault, BuildFault), with the first bad entry and the first entry used again told by splitting the list; iff by induction on the tables.

*Result:* C87_error_iff: exactly which error for which configuration (with overflow checks); C87_panics_iff: exactly when building panics instead (dimensions beyond 16 bits, surrogates used twice); C87_never: errors never given.  See C20_error_iff and C21_error_iff for the tables.

*Theorems:* Props/BuildError.lean: `C87_error_iff`, `C87_panics_iff`, `C87_never`.
*Axioms:* Classical.choice, Quot.sound, propext.

### C88 widths of patterns are the largest possible (partial)

*Claim:* The widths told for the lines of a pattern are not only safe but the largest possible: when a pattern is filled with lines of which one is wider than told for it, or has characters its font lacks, the sign rejects the message. So a filled pattern is shown exactly when all of its lines fit.
*For:* every sign, every pattern it renders, and all lines of plain text.

*How:* C72 gives one direction. For the other, the values of the filled message are found by induction over the areas as for C72, C67 gives that the texts of each text rectangle fit, and a line of an area with one text is as wide as Font::text_width says (C27).

*Result:* C88_shown_iff_partial, under the conditions of C72 on sign and pattern (no [sc] and [hc] tags, font tags at the end of fillable areas, right version IDs, in order; C72_false refutes the claim for others), and lines without brackets with characters 1 to 255.

*Theorems:* Props/Fits.lean: `C88_shown_iff_partial`.
*Axioms:* Classical.choice, Quot.sound, propext.

### C89 limits of the sign on messages are kept (partial)

*Claim:* A message with more pages than dmsMaxNumberPages of the sign, or longer than dmsMaxMultiStringLength, is not rendered without an error.
*For:* every sign and every message.

*How:* Messages of k [np] tags are shown by C67 and have k+1 pages by C41; for signs without [np] tags by C42 and C41.

*Result:* The claim is false for every valid sign that supports [np] tags (C89_false): C89_ignored gives messages of any number of pages and any length that are rendered without errors; the limits are stored but not used (see also C74_settings), and TooManyPages is never given (C83_kinds). C89_single_partial: the limit on pages is kept by signs without [np] tags, as there is one page only.

*Theorems:* Props/Limits.lean: `C89_ignored`, `C89_false`, `C89_single_partial`.
*Axioms:* Classical.choice, Quot.sound, propext.

### C90 the error of a page is that of its first fault (proved)

*Claim:* If a page has several faults, the error given is that of the first one: items that are not valid or not supported come first, in the order of the page; then background colors of the page; then its text rectangles one after the other, each with colors and graphics (in order), line and character spacing tags, justification, undefined fonts and characters, and texts too big. A page without faults is shown.
*For:* every sign, every message, every page, and every combination of faults on the page.

*How:* Each pass is a list of checks (Spec/First); that the passes give the error of the first check that fails is by induction on the loops (Lemmas/First), from C84 for items. Lines that are not numbered without gaps are renumbered as the renderer counts them (`counted`, Spec/Counted), so that their height (`totalHeight`) is exact for every page.

*Result:* C90_page, C90_later: the error of every page, exactly, for the first error and for later ones; C90_item: single items; C90_lines: lines numbered without gaps are counted by their numbers; C90_unique: there is at most one first fault.

*Theorems:* Props/First.lean: `C90_item`, `C90_page`, `C90_later`, `C90_lines`, `C90_unique`.
*Axioms:* Classical.choice, Quot.sound, propext.

### C91 the values of a page determine its picture (proved)

*Claim:* The picture of an ON page is completely determined by the sign, the values of the page, the text attributes set before and the background color: it is the background with, for each text rectangle, color rectangles and graphics in order and then each text once, at the place given by its line, its number on the line and the texts around it, whether the tags are in order or not. No other picture meets this description, and a page that has no fault is always shown so.
*For:* every sign with valid fonts and graphics, every message, every ON page without earlier errors.

*How:* `Composed` (C66) with the exact places of texts: `numbers` and `counted` lines as functions of the values (Spec/Drawn, Spec/Counted). Uniqueness by induction over the text rectangles: graphics by unique numbers, texts by the keys their places depend on (Lemmas/Picture).

*Result:* C91_page: the raster of a page is the only one that Composed allows; C91_same: pages with the same values, attributes and background are the same; C91_result: together with C90 what next gives at any ON page; C91_place: places of texts are unique.

*Theorems:* Props/Picture.lean: `C91_page`, `C91_same`, `C91_result`, `C91_place`.
*Axioms:* Classical.choice, Quot.sound, propext.

### C92 everything that is given for a message: its pages, or its first error (proved)

*Claim:* For a message on which rendering does not panic, the iterator gives its pages without an error exactly when no page has a fault; then the pages are the only ones described by its values: for each page an ON page with its picture and duration, and an OFF page in the background color when its off-time is not zero, with attributes carried from page to page. Otherwise the first error given is that of the first fault of the first page that has one, and no other.
*For:* every sign with valid fonts and graphics, every message on which rendering does not panic (all messages of C44), every list of pages and every error.

*How:* Spec/Account: `Pictured` (recursion over `splitPages` with `Composed` of C91) and `FirstFaulty` (recursion over pages with `FirstFault` of C90); the course of the iterator by strong induction over the remaining items.

*Result:* C92_message (pages iff no page has a fault, and which), C92_first_error (which error), C92_unique (the description allows one list of pages), C92_no_panic / C92_built (hypotheses met by the messages of C44, and by signs of the builder). OFF pages have the size of the last text rectangle (see findings).

*Theorems:* Props/Account.lean: `C92_first_error`, `C92_pictures`, `C92_unique`, `C92_message`, `C92_no_panic`, `C92_built`.
*Axioms:* Classical.choice, Quot.sound, propext.

### C93 exactly when rendering panics, and what comes first (proved)

*Claim:* For every message of at most 128 characters (or sizes within 16 bits), whatever its tags: its pages are given without error up to an error or a panic, exactly when that error or panic is the first stop of the first page that has one. The stops of a page are, in this order: items on which the parser panics, invalid items and unsupported tags; background colors; then for each text rectangle its tags without implementation, colors, color rectangles (a panic when an edge is beyond 16 bits) and graphics, its text tags, the next text rectangle (a panic when an edge is beyond 16 bits), and its texts, where text in the vertical middle panics when the character cell it is put in ends nearer to the top of the sign than the height of its font.
*For:* every sign with valid fonts and graphics and supported defaults, every message of at most 128 characters, every page reached, every error.

*How:* Spec/Stop: the list of checks of C90, each of which gives an error or a panic, in the order of the code; Lemmas/Stop: the verdict of each function on its checks; the sizes of C44 exclude all other panics.

*Result:* C93_ends (first error or panic of a message, both directions), C93_page (every page reached, also after errors), C93_never (no number of calls panics, exactly when no page reached has a panic as first stop), C93_message (C92 without its hypothesis that nothing panics), C93_unique, C93_built (signs of the builder). Outside of the claim: messages with more than 255 lines or texts or widths beyond 16 bits, default font 0 and unsupported default justifications (each panics, see C44_false).

*Theorems:* Props/Stop.lean: `C93_page`, `C93_never`, `C93_ends`, `C93_message`, `C93_unique`, `C93_built`.
*Axioms:* Classical.choice, Quot.sound, propext.

### C94 everything that is given for a message, also after errors (proved)

*Claim:* For every message that does not panic, the whole list of items given by the iterator (pages, OFF pages and errors) is the one told by its items alone: a page without fault is shown with its picture and times, followed by its OFF page; for any other page its first error is given, and what follows depends on the kind of that fault: the same page again and again for wrong items and background colors (so that there is no end), the text rectangle in question as the begin of a page for colors and graphics, nothing but an OFF page for tags of text the sign can not show, the text after a wrong text rectangle tag as a page, and for texts which can not be drawn the OFF page and the next page, or the following text rectangles as a page of their own.
*For:* every sign with valid fonts and graphics, every message without panic, every number and kind of errors in it; sides below 65535 pixels.

*How:* Spec/After: the checks of C90 paired with what follows each of them (Resume), and Given built from them; Lemmas/After: the state each function leaves behind after an error; Props/After: induction over the calls.

*Result:* C94_given: both directions, Spec.Yields (all items up to None) against Spec.Given (told from the items of the message, without state of the iterator); C94_built: signs of the builder, messages of at most 128 characters that do not panic. When no list is Given the iterator does not end (C51, C89).

*Theorems:* Props/After.lean: `C94_given`, `C94_built`.
*Axioms:* Classical.choice, Quot.sound, propext.

### C95 an error on one page does not affect the other pages (partial)

*Claim:* A page that can not be shown gives one error at its place, and all other pages (with their OFF pages, times, colors and text attributes) are given as they would be without the error.
*For:* every sign, every message, every combination of pages with errors.

*How:* From C94, with the checks of each page reduced to those of its texts. The widened version uses that an error with the next page after it is found at the end of the last text rectangle.

*Result:* False in general: C95_later_page_lost (after a tag of text the sign can not show the rest of the message is dropped; C94 tells all such cases). Proved for messages whose only faults are in texts (unknown fonts or characters, text too big, backwards justification) and which have no text rectangles: C95_pages_partial. Widened to messages with text rectangles, where the first fault of every page is found when the whole page has been read (on the last page also a wrong layout tag): C95_contained_partial. Other faults do affect what follows (C94), so nothing is missing but those.

*Theorems:* Props/After.lean: `C95_pages_partial`, `C95_later_page_lost`; Props/Contained.lean: `C95_contained_partial`.
*Axioms:* Classical.choice, Quot.sound, propext.

### C96 shorter texts are shown, too (proved)

*Claim:* When a message is shown without errors, so is every message that has the same tags and shorter texts: characters of texts left out (but no text completely), or texts replaced by ones that the fonts of the sign have the characters of and that are not wider. All pages have the same sizes and times.
*For:* every sign with valid fonts and graphics, every message that is shown (also with lines and justifications in any order), every choice of characters to leave out; sides below 65535 pixels, and messages whose sizes of text fit in 16 bits (all those of at most 128 characters).

*How:* Spec/Narrow: narrower texts; Lemmas/Narrow: the checks of C93 that stay silent; from C93 both messages are told by their checks, and their pages by C92.

*Result:* C96_narrower: texts that are not wider, every sign and message of C93 (sizes within 16 bits); C96_shortened: characters left out, signs of the builder, messages of at most 128 characters.

*Theorems:* Props/Narrow.lean: `C96_narrower`, `C96_shortened`.
*Axioms:* Classical.choice, Quot.sound, propext.

### C97 another text changes its own line only (proved)

*Claim:* When texts of a message are replaced by any other texts, and both messages are shown, then their pages have the same sizes and times, and differ only in pixels in the rows of a line with another text (of the texts with its justification), in the columns of its text rectangle. Other lines, other text rectangles, graphics and color rectangles, and pages without another text stay as they are.
*For:* every sign with valid fonts and graphics, every pair of shown messages with the same tags, every pixel of every page.

*How:* Spec/Wording: pixels that may differ; Lemmas/Wording: places of texts without change on their line are the same; the pages are told by C92.

*Result:* C97_rows: pixels in the rows of lines with another text, whatever the fonts and character cells; C97_rectangles: inside of text rectangles with other texts, on signs with fonts of the height of their character cells (or without character cells), as otherwise text sticks out of its rectangle (C43).

*Theorems:* Props/Wording.lean: `C97_rows`, `C97_rectangles`.
*Axioms:* Classical.choice, Quot.sound, propext.

### C98 texts with room are seen completely (proved)

*Claim:* When the texts of a text rectangle are in order (justification from left to right and from top to bottom) and have room (left and right text of a line fit beside each other, and two times beside centered text; lines at the top and bottom fit above each other, and two times with those in the middle), then no two texts overlap, and every pixel of every character is shown in the color of its text, unless a later text rectangle, or a color rectangle or graphic after the next [tr] tag, is there.
*For:* every sign with valid fonts and graphics whose font heights are whole character cells (or without character cells), every message, every page before the first error, every text rectangle with room, every pixel of its texts.

*How:* Spec/Room: room and boxes; the places of texts are those of C62 and C63, the page is that of C66, what is after the text rectangle does not change pixels that are not covered.

*Result:* C98_visible: texts do not overlap and all lit pixels are seen; C98_room: when there is room, in widths and heights of lines, on signs without character cells. Without room they overlap: C62_false, C63_false.

*Theorems:* Props/Room.lean: `C98_visible`, `C98_room`.
*Axioms:* Classical.choice, Quot.sound, propext.

### C99 a page of a message can be shown alone (proved)

*Claim:* When a message is shown, the message made of the tags whose effect stays ([fo], [jl], [jp], [sc], [/sc], [cf], [cb], [pb], [pt]) of the pages before a page, and of the values of this page, gives exactly the ON page of this page and the OFF page after it: the same pixels, sizes and times. Nothing else of earlier pages has an effect. (With a [cb] tag before, the page must not have a graphic.)
*For:* every sign made by the builder with usable defaults, every message that is shown, every page of it; sides below 65535 pixels, and messages whose sizes of text fit in 16 bits (all those of at most 128 characters).

*How:* Lemmas/Quiet: a message is shown exactly if no check of its pages gives an error, then C92 tells the pages; both are told from the values of the page and the attributes before it; state tags before the values give just these attributes.

*Result:* C99_page: for the builder and all state tags of earlier pages; C99_alone: also for other tags of the message with the same effect. A case shows that a [cb] tag before a [pb] tag changes graphics of one bit.

*Theorems:* Props/Alone.lean: `C99_alone`, `C99_page`.
*Axioms:* Classical.choice, Quot.sound, propext.

### C100 messages one after another (proved)

*Claim:* Two messages with a new page and tags between them that take back everything ([np][fo][jl][jp][/sc][cf][pb] and [pto], or other tags with this effect) are shown exactly if each of them is shown alone, and what is given is what is given for the first one, followed by what is given for the second one. So no state but that of these tags is kept from page to page.
*For:* every sign made by the builder with usable defaults that supports these tags, all pairs of messages; sides below 65535 pixels, and messages whose sizes of text fit in 16 bits (all those of at most 128 characters).

*How:* From the form of C93 for values (Lemmas/Quiet), as C99: checks and pages of both parts depend on the state tags before only through the attributes, which are those of the sign again.

*Result:* C100_reset: with the tags, on a built sign; C100_sequence: with any state tags that restore the state (with [cb] tags among them the second message must have no graphic, see C99).

*Theorems:* Props/Sequel.lean: `C100_sequence`, `C100_reset`.
*Axioms:* Classical.choice, Quot.sound, propext.

### C101 a text rectangle is like a sign of its own (proved)

*Claim:* A message that a sign shows can be shown on a larger sign which differs in size only: with a text rectangle of the size of the smaller sign at the beginning of each page (and with explicit sizes for rectangles whose size was left open), every page is seen unchanged in the upper left corner for the same time, and the rest of the larger sign has the background color of the page.
*For:* every sign made of valid tables with usable defaults whose fonts fit into its lines, every larger size whose character cells fit, every message with at most 48 text rectangles on a page; sides below 65535 pixels, and messages whose sizes of text fit in 16 bits (all those of at most 128 characters).

*How:* From the form of C93 for values (Lemmas/Quiet): the checks of the small sign imply those of the large one, as all rectangles and graphics have explicit places; then both pictures are compared section by section (layered_inset, textDrawn_reworded).

*Result:* C101_inset. The message is shown on the larger sign whenever it is on the small one; the OFF pages are the same (the renderer gives them the size of the last text rectangle, see C39); with C77 the same holds at other places of the larger sign.

*Theorems:* Props/Inset.lean: `C101_inset`.
*Axioms:* Classical.choice, Quot.sound, propext.

### C102 defaults of a sign are like tags at the beginning (proved)

*Claim:* The default font, line and page justification and page times of a sign have the effect of the tags [fo], [jl], [jp] and [pt] at the beginning of each message, and of their values wherever such a tag leaves its value open: a sign with other defaults shows a message exactly if the sign shows the message with these tags written, and all pages are the same. So a message that writes all of them does not depend on the defaults of the sign.
*For:* every sign made of valid tables with usable defaults that supports [fo], [jl], [jp] and [pt], every choice of usable other defaults, all messages; sides below 65535 pixels, and messages whose sizes of text fit in 16 bits (all those of at most 128 characters).

*How:* From the form of C93 for values (Lemmas/Quiet), as C99: attributes and times after each value are the same when the value left open is written; checks and pictures depend on the defaults only through them.

*Result:* C102_defaults: sign with other defaults; C102_own: its own defaults written out, on built signs. Default colors are C76.

*Theorems:* Props/Defaults.lean: `C102_defaults`, `C102_own`.
*Axioms:* Classical.choice, Quot.sound, propext.

### C103 of tags for style, only what they have set matters (proved)

*Claim:* Tags for font, character spacing, foreground and background color, page background and page times matter only by what they have set in the end: with other such tags in their place, in another order, overridden at once or left out as redundant, all allowed on the sign and setting the same, a message is shown exactly if it was shown before, and all pages are the same. Of [cb] this holds only if no graphic follows.
*For:* every sign made of valid tables with usable defaults, all messages, every place in them and all lists of tags for style there; sides below 65535 pixels, and messages whose sizes of text fit in 16 bits (all those of at most 128 characters).

*How:* From the form of C93 for values (Lemmas/Quiet): pieces of text, lines, colors at each graphic and the checks are the same for two messages whose settings agree behind the tags (relation Swap on values, sections and pages).

*Result:* C103_style: any valid sign; C103_built: signs made by the builder, messages of at most 128 characters. The condition on [cb] is needed (case in Props/Style).

*Theorems:* Props/Style.lean: `C103_style`, `C103_built`.
*Axioms:* Classical.choice, Quot.sound, propext.

### C104 the rendering example writes an image of every page (partial)

*Claim:* The rendering example writes, for every sign and message, an image of each page (ON and OFF) given before the first error, in order, in files of their own named by number, from which each pixel can be read back. It ends well exactly if the message is shown, otherwise with the error of the first stop of the message. As it is, with its own sign and message, it writes the images of its pages.
*For:* every sign made by the builder whose images fit in 32 bits, all messages.

*How:* Induction on the pages given (Steps) with the bound of C50; C73 for each image; C93 for the end.

*Result:* C104_files, C104_names: any sign and message; C104_ending: signs of the builder, messages of at most 128 characters. The last sentence is false (C104_false): the sign of the example is not valid, the error of the builder is unwrapped and nothing is written. With a face large enough the message is shown on four images (case in Props/Example).

*Theorems:* Props/Example.lean: `C104_files`, `C104_names`, `C104_ending`, `C104_false`.
*Axioms:* Classical.choice, Quot.sound, propext.

### C105 fonts are found by their names (proved)

*Claim:* Looking up a name gives the first font in the table with exactly this name, or nothing when no font has it. Fonts with new and different names put in unused slots are all found by their names, and other names give what they gave before. A font from a file is found by the name in the file exactly if this has at most 64 bytes and no NUL character; longer names are cut, and such a font is not found by its full name.
*For:* every table, every name, every sequence of insertions, every font file.

*How:* Induction on the table; C70_name for files.

*Result:* C105_lookup, C105_missing: every table. C105_insertions: unused slots have the same name (as by default), which is none of the new names. C105_file: with C70 for the font of the file. Added because a wrong program (names compared by their first characters) was not noticed by C24.

*Theorems:* Props/ByName.lean: `C105_lookup`, `C105_missing`, `C105_insertions`, `C105_file`.
*Axioms:* Classical.choice, Quot.sound, propext.

### C106 the order of drawings and texts does not matter (proved)

*Claim:* Color rectangles and graphics may be written before, among or after the texts and other tags of their text rectangle (graphics not on the other side of a tag for foreground or background color), and in any order among themselves when they have no pixel in common: a message is shown exactly if it is shown after such exchanges, and all pages are the same.
*For:* every sign made of valid tables with usable defaults and sides below 65535 pixels, all messages whose sizes of text fit in 16 bits (all those of at most 128 characters), and all sequences of such exchanges.

*How:* One exchange keeps the attributes, pieces and layers of each text rectangle; then the exact conditions of C93 at both ends.

*Result:* C106_order: any valid sign and messages whose calculations fit (SizesOk); C106_built: signs made by the builder, messages of at most 128 characters. The conditions on common pixels and color tags are needed (cases in Props/Order).

*Theorems:* Props/Order.lean: `C106_order`, `C106_built`.
*Axioms:* Classical.choice, Quot.sound, propext.

### C107 the graphic example writes an image of its graphic (proved)

*Claim:* What the graphic example does gives, for every valid graphic of monochrome 1-bit, classic or 24-bit color, an image file of the size of the graphic, from which each pixel can be read back in the color of the graphic there; transparent pixels, and those without a color, are black. As it is, it writes its arrow, white on black.
*For:* every valid graphic of these three types, all pixels.

*How:* What to_raster gives (C36) in the file written (C73); the program has no input, its file is evaluated by the kernel.

*Result:* C107_image: any valid graphic of these types; C107_program: the file the program writes, pixel by pixel. For monochrome 8-bit graphics to_raster takes levels for classic colors (C36).

*Theorems:* Props/ExampleGraphic.lean: `C107_image`, `C107_program`.
*Axioms:* Classical.choice, Quot.sound, propext.

### C108 tags that say the same are shown the same (proved)

*Claim:* Two messages whose items agree, or say the same in other words, give the same results: the same pages, and errors at the same places, which name the tag as written. The same in other words are: colors that the sign shows alike (such as a classic number and its RGB values on a 24-bit sign), defaults left out or named (font, justification, times; default colors too, but on signs other than 24-bit only in messages without graphics), sizes of rectangles left open or written out, a graphic without place or at 1,1, version IDs given or left out, and a character by its number.
*For:* every sign (fonts and graphics need not be valid), every message, also with errors; any number of such replacements at once.

*How:* Two runs side by side: the states differ only in colors that look alike and in version IDs that are right (`Like`), which the layout does not see (`plain`).

*Result:* C108_synonyms: all results, with errors and panics; C108_shown: shown as the same pages, both ways; C108_graphics: default colors cannot be exchanged with their numbers on monochrome signs where a 1-bit graphic is drawn (see C38).

*Theorems:* Props/Synonym.lean: `C108_synonyms`, `C108_shown`, `C108_graphics`.
*Axioms:* Classical.choice, Quot.sound, propext.

### C109 release builds reject all rectangles off the sign alike (proved)

*Claim:* In a release build it does not matter which rectangle off the sign a [tr] or [cr] tag has, also if its edges need more than 16 bits (where a build with overflow checks panics): messages that differ in such rectangles only give the same pages, and errors at the same places, which name the rectangle as written. So a release build does not panic on account of rectangles: its results are those of a build with overflow checks for a message of such rectangles within 16 bits.
*For:* every sign of less than 65535 pixels in each direction, every message; for the absence of panics the signs and messages of C44, without any condition on rectangles.

*How:* Two runs side by side, whose states differ in the items to come only; the message within 16 bits is made by putting [tr65534,1,1,1] (which is not longer, by the grammar of C84) in place of rectangles beyond 16 bits.

*Result:* C109_off_sign: any number of calls of next, also after errors; C109_checked: compared with a build with overflow checks; C109_no_panic, C109_built: no panic for the signs and messages of C44 without the condition on rectangles (signs narrower than 65534 pixels).

*Theorems:* Props/OffSign.lean: `C109_off_sign`, `C109_checked`, `C109_no_panic`, `C109_built`.
*Axioms:* Classical.choice, Quot.sound, propext.

### C110 drawings that are painted over can be left out (proved)

*Claim:* A color rectangle or graphic cannot be seen if each pixel that it paints is painted again by color rectangles or graphics after it in the same text rectangle: a message with it is shown exactly if the sign can draw it (its tag is supported, and it is there and inside of the sign) and the message without it is shown, and all pages are the same. Examples are a color rectangle inside of a later one, and anything before a color rectangle of the whole sign.
*For:* every sign made of valid tables with usable defaults and sides below 65535 pixels, all messages whose sizes of text fit in 16 bits (all those of at most 128 characters), with such a drawing at any place, and without it.

*How:* By the exact account of shown messages (Pictured), from list to pages to text rectangles: a drawing has no effect on texts and attributes, and its layer is below that of a later drawing at each of its pixels.

*Result:* C110_hidden; C110_built on built signs; C110_rectangle and C110_whole: two kinds of hidden drawings.

*Theorems:* Props/Hidden.lean: `C110_hidden`, `C110_built`, `C110_rectangle`, `C110_whole`.
*Axioms:* Classical.choice, Quot.sound, propext.

### C111 different texts look different (proved)

*Claim:* When two messages have the same tags, and texts of characters of the same widths (for example any texts of the same lengths in fonts of one width), which differ in at least one character, they are never shown with the same pages: the texts can be read off the pages, if no two characters of a font have the same width and pixels, and the texts are seen, that is in order, with room beside each other (C98), in colors other than the background, on pages without graphics, color rectangles and text rectangles.
*For:* every sign with valid tables whose fonts have no two alike characters, every two such messages of any number of pages, lines and texts.

*How:* The two pictures light the same pixels, as all text colors differ from the background.  Texts of the same widths are at the same places, in boxes apart from each other (C98), so each text lights the same pixels in both, and so does each character.

*Result:* C111_legible; C111_built on built signs; C111_fixed: texts of the same length in fonts of one width.

*Theorems:* Props/Legible.lean: `C111_legible`, `C111_built`, `C111_fixed`.
*Axioms:* Classical.choice, Quot.sound, propext.

### C112 the numbers and names of fonts and graphics are names only (proved)

*Claim:* If the fonts and graphics of a sign get other numbers (different ones for different numbers) and other names, and the numbers in the tags of a message and of the default font are changed in the same way (with the version IDs which the renamed fonts and graphics have), then everything is rendered as before: the same pages with the same times, the same errors at the same items (naming the new numbers), and a panic only if there was one before.  The sign with new numbers is still built, if unused slots stay unused, and has as many lines in each rectangle.
*For:* every sign, every injective change of numbers, every change of names, every message, also with errors, and every number of results.

*How:* A relation between the states of the two iterators (fonts of spans and states renumbered, rasters equal), kept by every function of the iterator.

*Result:* C112_results (all results, also errors), C112_shown, C112_values (messages told by their values), C112_built, C112_lines.

*Theorems:* Props/Renumber.lean: `C112_results`, `C112_shown`, `C112_values`, `C112_built`, `C112_lines`.
*Axioms:* Classical.choice, Quot.sound, propext.

### C113 text added below does not move the text above (proved)

*Claim:* When text and tags of its style are added at the end of a message, beginning with a new line after text at the top, or with a later page justification, and both messages are shown (with the justifications of the last text rectangle in order), then all pages but the last one are the same, and the last one has the same size and times.  Its pixels are the same, except for pixels which are lit by an added text, and these are below all old texts with the page justification of that text.  So nothing shown before moves or disappears, unless added text is drawn over it.
*For:* every valid sign, every message with any pages, text rectangles, graphics and styles, and every text added to it.

*How:* The pages as told by C92; the texts of the longer message are those of the shorter one, in the same order, then the added ones.  The added ones are on other lines (or have another page justification), so the widths of the old lines are the same, and so are the heights of the lines above (C62, C63).

*Result:* C113_added.  For text in the vertical middle it is false, as an example shows: an added line moves the ones before up.

*Theorems:* Props/Added.lean: `C113_added`.
*Axioms:* Classical.choice, Quot.sound, propext.

### C114 page times do not change the pictures (proved)

*Claim:* Two messages whose values are the same apart from [pt] tags, on a sign with that tag, are both shown without error or both not, and the pictures of their ON pages are the same, one by one.  The durations depend on the [pt] tags only: each page has the times of the last [pt] tag before its end, and an OFF page follows exactly the pages whose off-time is not zero.
*For:* every valid sign, all pairs of messages which differ by any number of [pt] tags at any places.

*How:* By C93 a message is shown exactly if the sign has its tags, and no check of a page stops; the pages are those of C92.  None of these looks at a [pt] tag: text pieces, line numbers, drawings, colors and checks of the values are the same when the tags are left out.

*Result:* C114_pictures, C114_times, C114_built.

*Theorems:* Props/Times.lean: `C114_pictures`, `C114_times`, `C114_built`.
*Axioms:* Classical.choice, Quot.sound, propext.

### C115 text rectangles without common pixels can be exchanged (proved)

*Claim:* Two text rectangles one after the other, with no pixel in common, whose values are texts and tags of text style, and which leave the style of text and the line spacing as they were, can be exchanged: if the message is shown without error then so is the message with the two in the other order, with the same number of pages, the same pictures of the ON pages, pixel by pixel, and the same durations.
*For:* every valid sign whose fonts are as high as the character cells (always so on signs without cells), all messages, all pairs of neighbouring text rectangles on any page.

*How:* By C93 and C92 a message is shown exactly if no check of a page stops, with the pages of C92.  The values of a text rectangle paint the same pixels whatever is painted before (Lemmas/Paint), all within the rectangle, so that the two paint different pixels; the checks of a rectangle look at the style before it only.

*Result:* C115_exchange, C115_built.  The OFF pages are not compared.

*Theorems:* Props/Trade.lean: `C115_exchange`, `C115_built`.
*Axioms:* Classical.choice, Quot.sound, propext.

### C116 a text rectangle told twice is the same as told once (proved)

*Claim:* A text rectangle of texts and tags of text style, which leaves the style of text and the line spacing as they were, may be told twice in a row: exactly the same pages are shown, if there are then fewer than 50 text rectangles on the page; else the message with the two is not shown.
*For:* every valid sign, all messages, any text rectangle on any page.

*How:* As C115: the values paint the same pixels in the same colors the second time, whatever the raster is.  The count of text rectangles is the one check that tells the two messages apart.

*Result:* C116_again, C116_built.

*Theorems:* Props/Trade.lean: `C116_again`, `C116_built`.
*Axioms:* Classical.choice, Quot.sound, propext.

### C117 what is painted over is not seen (proved)

*Claim:* When the drawings (color rectangles, graphics) of a text rectangle cover the whole sign, nothing of the page that comes before it in the message is seen: neither its texts nor its drawings.  Two messages shown without error, which differ only in what is before that text rectangle on its page, have exactly the same pages, if they set the same for what follows (style of text, line spacing, page times, background).  Text rectangles before it, which set nothing for what follows, can be left out.
*For:* every valid sign, all messages, any page, all drawings that cover the sign together, any values before and after.

*How:* A page is composed of its text rectangles in order (C66, C92), the drawings of each before its texts.  The raster before the covering text rectangle has the size of the sign and has changed on the sign only; each of its pixels is painted again; from there on, the two messages do the same.

*Result:* C117_cover, C117_cut, C117_built.

*Theorems:* Props/Cover.lean: `C117_cover`, `C117_cut`, `C117_built`.
*Axioms:* Classical.choice, Quot.sound, propext.

### C118 text typed on does not move the text to its left (proved)

*Claim:* When more text is added at the end of a message, on the same line and in the same font, then the text shown before does not move or change, unless it is in the center or at the right: the pages before are the same, and the last page has the same size and time.  Its pixels are the same, except for pixels lit by the added text, and those are to the right of all texts that were on the line with that line justification.  So a message that is typed from left to right grows on the sign in the same way.  Text in the center or at the right of the line may be added after text at the left without moving it.
*For:* every valid sign, all messages that keep to one rule for tags within a page (as in C113), all added texts, colors, spacings and line justifications.

*How:* Both messages give the same pages up to the last text rectangle (C113).  There, the layout of the longer message begins with the layout of the shorter one.  A text at the left is placed after the widths of the texts before it on its line, which are the same; added text with another line justification is no part of that sum.  The heights of lines are the largest heights of the fonts on them, which do not change, as the added texts have the font of the text before.

*Result:* C118_onward (values added), C118_typed (the last text made longer), C118_moved (centered text, text at the right and text of a lower font do move).

*Theorems:* Props/Onward.lean: `C118_onward`, `C118_typed`, `C118_moved`.
*Axioms:* Classical.choice, Quot.sound, propext.

### C119 version IDs tell of a few changed bits (proved)

*Claim:* When an odd number of bits of the bitmap of a graphic, or of the characters of a font, is changed, so is its version ID; also when one, two or three bits are changed, if the bitmap (the data of the characters) has at most 4095 bytes; and when only bits within 16 consecutive bits are changed, also if they do not begin with a byte.  When exactly two bits are changed, the version ID stays the same exactly if they are a multiple of 32767 bits apart.
*For:* all graphics and fonts, all bitmaps, all positions of the changed bits, also in several characters.

*How:* The register of the CRC is updated bit by bit by a linear map, so the IDs are the same exactly if the changed bits alone leave the register 0 (changed_run).  The parity of the register counts the changed bits (x + 1 divides the polynomial).  Two bits are not seen exactly if the register comes back to 1 after their distance; the period is 32767, which is checked by computing the register after 32767, 4681, 1057 and 217 shifts (32767 = 7 * 31 * 151).  Sixteen bits in a row are in the register all at once.

*Result:* C119_graphic_odd, C119_graphic_few, C119_graphic_two_iff, C119_graphic_burst, C119_font_odd, C119_font_few, C119_font_burst; C119_unseen: two graphics of 4096 bytes that differ in two pixels and have the same version ID.

*Theorems:* Props/Changed.lean: `C119_graphic_odd`, `C119_graphic_few`, `C119_graphic_two_iff`, `C119_graphic_burst`, `C119_font_odd`, `C119_font_few`, `C119_font_burst`, `C119_unseen`.
*Axioms:* Classical.choice, Quot.sound, propext.

### C120 justification moves text as a whole (proved)

*Claim:* When the page justification of the text at the end of a message (in a text rectangle without other text) is changed, only the last page changes, and there the text is moved up or down as a whole: both pages are the page without the text, with the same picture of the text over it, as high as its lines, with its upper edge at the top, in the middle or at the bottom of the text rectangle.  The same for the line justification of one line of text, which is moved to the left or right; its picture is as wide as the line of text.
*For:* all valid signs, all messages, all texts with any fonts, colors, spacings and (for the page justification) lines and line justifications, all text rectangles, all pairs of justifications.

*How:* Spec/Justify: a raster with a picture over it at a place (Over), height and upper edge of the text.  The text without the last rectangle's text is drawn from the page of the message without it (shown_over, from shown_ended of C113, now for any relation of the two pages).  The texts of both messages are the same but for the justification (pieces_page, pieces_line), the widths and heights do not depend on it (rejust), so every text has the same distance from the upper (left) edge, and its pixels move with it (textColor_moved).

*Result:* C120_vertical, C120_horizontal.  Text in the middle of signs with character cells only if the heights of the fonts are multiples of the cell height; centered text only on signs without character cells.

*Theorems:* Props/Justify.lean: `C120_vertical`, `C120_horizontal`.
*Axioms:* Classical.choice, Quot.sound, propext.

### C121 a pattern filled with other lines changes only those lines (proved)

*Claim:* When a pattern is filled twice, with two lists of lines without tags, the two messages have the same values one by one, but for the lines, which are replaced one by one.  When both are shown, they have the same pages with the same durations, and these differ only in the rows of spans with another text, and only inside of the text rectangles that got other lines.
*For:* all valid signs that support [np], all patterns without font tags between two texts of the same area, all pairs of lists of lines (each line without brackets, and empty in both lists or in neither).

*How:* Spec/Relined: the same value, or a line in place of the line with the same number.  The two filled patterns are both relations of the areas of the pattern and the lines (Filled, C55), so their values are put together in step (filled_relined); texts are not next to each other (Apart), so they are parsed one by one.  The pages are compared by C97.

*Result:* C121_values, C121_rows, C121_rectangles (the last when all fonts have the height of the character cells, or there are none).

*Theorems:* Props/Relined.lean: `C121_values`, `C121_rows`, `C121_rectangles`.
*Axioms:* Classical.choice, Quot.sound, propext.

### C122 drawings that paint the same are shown the same (proved)

*Claim:* Color rectangles and graphics that follow one another in a message can be replaced by any others that the sign can draw and that paint every pixel the same (or leave it alike): the pages are the same, also their texts and the drawings after them.  Color rectangles of one color paint the same if together they have the same pixels, for example a rectangle and its two halves.  A graphic with more than one bit per pixel paints the same as one color rectangle of a single pixel for each of its pixels which is not transparent, in any order.
*For:* all valid signs, all messages, all lists of drawings, all graphics of 8-bit, classic and 24-bit type at all places on the sign.

*How:* Spec/Repaint: drawings that paint alike (PaintAlike, from the layers of C66), color rectangles of the pixels of a graphic (PixelRects).  The two messages differ in drawings only (Rep), which no text, style, page time or background depends on (rep_text, rep_pieces, …), and the layers of the pages are the same (rep_layered); the pages are given by shown_iff.

*Result:* C122_repaint, C122_tiles, C122_graphic, C122_pixels.  1-bit graphics are left out of C122_graphic: they have the colors in effect at their place, which a color rectangle has to tell as a number.

*Theorems:* Props/Repaint.lean: `C122_repaint`, `C122_tiles`, `C122_graphic`, `C122_pixels`.
*Axioms:* Classical.choice, Quot.sound, propext.

### C123 only the characters of a font that a message uses matter (proved)

*Claim:* Two signs which differ in their fonts only give the same pages, errors and panics for a message, if they have fonts under the same of the numbers the message uses, and these fonts have the same height and spacings and the same characters for the code points in the texts and character tags of the message: other characters, the order of characters and the names of fonts do not matter.  So fonts can be cut down to the characters of a message.  Version IDs of fonts in tags must be right or wrong for both fonts, and the message has no NUL character.  Widths, filling and lines of patterns depend on heights and line spacings of the fonts only.
*For:* all signs with unique numbers of fonts and characters, all messages without NUL characters, all fonts alike in this way, all patterns and lines.

*How:* Spec/Glyphs: characters a message uses (UsesChar) and fonts with the same characters (SameGlyphs).  Lemmas/Glyphs: simulation of the renderer with both font tables, the spans only have characters and fonts the message uses (rtrStep_glyphIn … run_alike).

*Result:* C123_glyphs, C123_cut, C123_pattern.  The statement leaves out NUL characters in texts: several unused entries of a font can have the number 0.

*Theorems:* Props/Glyphs.lean: `C123_glyphs`, `C123_cut`, `C123_pattern`.
*Axioms:* Classical.choice, Quot.sound, propext.

### C124 another text moves only the texts of its line on one side (proved)

*Claim:* When texts of a message are replaced by any other texts, and both messages are shown, then their pages have the same sizes and times, and differ only in pixels which are lit, in one of them, by a text that is another one, or that is moved by another text of its line: a text at the left only by texts before it, a text at the right only by texts after it, a text in the center by all texts of the line with its justification.  So the line does not change to the left of another text at the left, and not to the right of another text at the right.
*For:* all signs with valid fonts and graphics, all pairs of shown messages with the same tags, all pixels of all pages.

*How:* Spec/Places: texts with their numbers (numberedLayout), Moves, NewPlaces, BesideNew.  Lemmas/Places: the width before a text at the left depends on texts before it only (before_left), the width from a text at the right on depends on the others only (before_right), so places stay (exactX_unmoved); the pages are compared as for C97.

*Result:* C124_places, C124_beside.  For texts at the right, the side is told for texts whose number on the line is their own (a repeated [jl] tag begins numbers anew, see C46).

*Theorems:* Props/Places.lean: `C124_places`, `C124_beside`.
*Axioms:* Classical.choice, Quot.sound, propext.

### C125 a sign is built from what its builder was told last (proved)

*Claim:* A sign that is built has, of each kind of settings (sign, VMS, fonts, MULTI, graphics), the ones its builder was told last, or else the default ones; settings of other kinds and earlier ones have no effect on whether it can be built and on the sign.  The default settings alone make a sign, for all sizes of its tables, which is filled by its character cells; without fonts, it shows no message with text or a character tag, and without graphics none with a graphic.  The name of a color scheme gives this scheme, and any other name gives the scheme of one bit.
*For:* all sequences of calls of the builder, all table sizes, all messages, all names.

*How:* Spec/Told: calls (Setting), what was told last (lastTold), the table of names.  The builder is the tuple of what was told last (told_eq, induction over the calls from the end); C22 gives the sign.  For C125_without the pictures of C92 and the fonts and graphics they need (composed_uses of C65).

*Result:* C125_last, C125_order, C125_without, C125_default, C125_schemes.

*Theorems:* Props/Told.lean: `C125_last`, `C125_order`, `C125_without`, `C125_default`, `C125_schemes`.
*Axioms:* Classical.choice, Quot.sound, propext.

### C126 a new line is like a text rectangle which begins at that line (proved)

*Claim:* Take a message which ends with text at the top of its last text rectangle, in order, and one of its new lines.  When this [nl] tag is replaced with a text rectangle at the same left, with the same width, and lower by the heights of the lines before and the spaces below them, and both messages are shown, then they are shown with the same pages: every pixel and the times are the same.  Only the size of the blank page of the last page's off time, if there is one, may be another.
*For:* all signs with valid fonts and graphics, all messages with any pages, graphics and text rectangles before, all texts and styles on the lines.

*How:* Spec/Stack: the place of the next line (AtNextLine), from the heights of lines of Spec/Layout.  The texts of the longer rectangle are those before (at their places as in C113) and those after, which are those of the new rectangle on lower lines (pieces_lowered); the height of n lines of the longer one is what is before plus the height of the lines of the new one (linesHeight_lowered), and widths do not depend on line numbers (exactX_lowered).

*Result:* C126_line.

*Theorems:* Props/Stack.lean: `C126_line`.
*Axioms:* Classical.choice, Quot.sound, propext.

### C127 text put before text at the bottom, or at the right, does not move it (proved)

*Claim:* Take a message which ends with text at the bottom of its last text rectangle, in order.  When lines are put before this text, which end with the style they began with, and both messages are shown, then they are shown with the same pages, except for the last one; it has the same size and time, and its pixels are the same, except for pixels which are lit by the texts of the new lines, and are above all texts which were there before.  The same holds for one line of text at the right, in one font, when text is put before it on this line: changed pixels are lit by the new texts, and are to the left of all texts which were there before.
*For:* all signs with valid fonts and graphics, all messages with any pages, graphics and text rectangles before, all new lines and texts.

*How:* Spec/Before: which pixels may change (LitAbove, LitLeft).  Above: the texts of the longer message are the new ones and those before on lower lines (pieces_lowered); the number of lines grows by those put before (dense_lowered), so the height of all lines and the height up to a line grow by the same (linesHeight_lowered), and the place from the bottom is the same.  Left: the place of a text from the right is the width of the texts after it (atX_right), and on a line of one font the height does not depend on the texts (atY_line).

*Result:* C127_above, C127_left; C127_moved shows that text in the middle, in the center, or of a lower font does move.

*Theorems:* Props/Before.lean: `C127_above`, `C127_left`, `C127_moved`.
*Axioms:* Classical.choice, Quot.sound, propext.

### C128 text stays where it is when only other edges of its text rectangle are moved (proved)

*Claim:* Take a message with a text rectangle anywhere, and another rectangle of which the edges are the same at which the texts of the rectangle are placed: for texts at the left the left edge, at the right the right one, at the top the upper one, at the bottom the lower one, and for texts in the center or middle both.  When the text rectangle is replaced with the other one, and both messages are shown, then they are shown with the same pages.  Only the size of the blank page of an off time may be another.
*For:* all signs with valid fonts and graphics, all messages with a text rectangle on any page, with anything before and after it, all other rectangles.

*How:* Spec/Resize: which edges are kept (SideKept, LevelKept).  The place of a text in a row (ExactX) and its height (ExactY) have the edges of its rectangle only in the place of the line and of the lines; both are the same with edges kept.  So the text of the section is drawn alike (textDrawn_resized), and sections and pages before and after it are alike (composed_amid, pictured_amid).

*Result:* C128_resized; C128_moved shows that text moves with the edges it is placed at.

*Theorems:* Props/Resize.lean: `C128_resized`, `C128_moved`.
*Axioms:* Classical.choice, Quot.sound, propext.

### C129 a message that is shown is also shown with larger text rectangles (proved)

*Claim:* When text rectangles of a message that is shown are replaced with valid ones which are as wide and as high or more, anywhere on the sign (on a sign with character cells not beginning above the old ones), then the message is shown, too, with as many pages, of the same times, and (but for blank pages of off times) of the same sizes.  When one text rectangle is made larger, and the edges which its texts are justified to stay where they are, the pages are the same.
*For:* all valid signs, all messages of a length which the sign can measure, all text rectangles.

*How:* The checks of a page (Spec/Stop, C93) are compared one by one: a text's line width and the height of its lines do not depend on the rectangle (lineWidth_moved, totalHeight_moved), the checks of values are the same, the new rectangle is valid by hypothesis, and the panic of text in the middle above the sign can not happen without character cells (countedHeight_own), or when the text is not higher up (cellEdge_mono).  Then C93 gives that the message is shown; C128 gives the same pages.

*Result:* C129_larger, C129_same; C129_smaller shows that a smaller rectangle is refused, and that on a sign with character cells a rectangle higher up on the sign can panic.

*Theorems:* Props/Grown.lean: `C129_larger`, `C129_same`, `C129_smaller`.
*Axioms:* Classical.choice, Quot.sound, propext.

### C130 a message can be normalized while it is written (proved)

*Claim:* When a tag and anything more is put behind a message, the normalized message only gets longer: what was normalized before is the beginning of it, and it is longer exactly if something visible was put behind the message.  When the message ends with something visible, and has no [hc] of two or more digits, then normalizing the whole gives the same as normalizing the normalized message with the rest put behind it.
*For:* all messages (which do not end with a single bracket), all strings which begin with a tag put behind them.

*How:* The loop of normalize over both parts is the loop over the second part from the state after the first (normLoop_append).  Output and withheld tags of this state are known (foldl_step, foldl_step_trail); its attributes are those after the values, which are the same after removing tags told twice (after_dedup) and joining texts (after_mergeT), so reading the normalized message again ends in the same state.

*Result:* C130_prefix, C130_onward; C130_parts shows that parts that end with tags can not be normalized first, and that the rest can not be normalized on its own.

*Theorems:* Props/Onpass.lean: `C130_prefix`, `C130_onward`, `C130_parts`.
*Axioms:* Classical.choice, Quot.sound, propext.

### C131 a message that is shown is also shown with smaller spacings (proved)

*Claim:* When the numbers of [sc] and [nl] tags of a message that is shown are replaced with smaller ones, the message is shown, too, with as many pages, of the same sizes and times.
*For:* all valid signs, all messages of a length which the sign can measure, with any number of these tags.

*How:* As for C96 and C129, the checks of a page (C93) are compared one by one: line widths (lineWidth_tighter) and heights of lines (linesHeight_tighter) are not larger with smaller spacings, also between texts of different fonts, where half of the sum counts; the checks of the tags are kept (on signs with character cells only 0 is valid); and with character cells the heights are the same (linesHeight_cells).

*Result:* C131_tighter; C131_left_out shows that a tag for the spacing can not be left out.

*Theorems:* Props/Tighter.lean: `C131_tighter`, `C131_left_out`.
*Axioms:* Classical.choice, Quot.sound, propext.

### C132 drawings change only the pixels that they paint (proved)

*Claim:* When color rectangles and graphics which follow one another in a message that is shown are replaced with any others that the sign can draw, or left out, the message is shown, too.  All other pages are the same, and the page with the drawings has the same size and time; only such pixels of it can have another color which one of the drawings, old or new, paints.  No text is moved, or gets another style.
*For:* all valid signs, all messages of a length which the sign can measure, all drawings in any number.

*How:* The messages are compared value by value as for C122; a pixel which no drawing paints gets the same layers (rep_layered_off), and each later text rectangle and text changes pixels alike which were alike (composed_pixel, textDrawn_pixel), since the places of texts do not depend on drawings.  That the message is shown follows from the checks of C93: drawings which can be drawn give no error.

*Result:* C132_drawings, C132_left_out.  A drawing between two texts can be replaced, but is not left out by the theorem, since the two texts are then one.

*Theorems:* Props/Brush.lean: `C132_drawings`, `C132_left_out`.
*Axioms:* Classical.choice, Quot.sound, propext.

### C133 a text rectangle changes only its own pixels (proved)

*Claim:* When a text rectangle is left out of a message that is shown, with all that is in it, and it sets nothing for what follows (font, colors, justification, spacing, times), then the message is shown, too.  All other pages are the same.  Its own page has the same size and time, and only such pixels of it can have another color which are inside of the text rectangle, or which one of its drawings paints.  If it was the last text rectangle of its page, then the blank page of the off time can have another size; else that is the same, too.
*For:* all valid signs whose font heights are multiples of the height of a character cell (or with no cells), all messages of a length which the sign can measure, all text rectangles with any texts, drawings and attributes in it.

*How:* The page is split at the text rectangle (sections_taken, composed_split): the pictures before it are equal, its drawings do not change a pixel which they do not paint, its text changes only pixels inside of it (the clause ChangesIn of TextDrawn), and all that comes after changes pixels alike which were alike (composed_pixel of C132).  That the message is shown follows from the checks of C93, as for C117_cut.

*Result:* C133_left_out, C133_built.  On a character-matrix sign with fonts whose height is no multiple of the cell height, text at the middle can leave its rectangle at the top (C43).

*Theorems:* Props/Taken.lean: `C133_left_out`, `C133_built`.
*Axioms:* Classical.choice, Quot.sound, propext.

### C134 a message that is shown is also shown with smaller fonts (proved)

*Claim:* When the fonts of a sign are replaced with fonts of the same numbers which have the same characters (or more), none of them wider, and whose height and spacings are not larger, then every message that was shown is shown, with as many pages of the same sizes and times.  In particular the spacings of fonts can be made smaller.  Version IDs told in the message must be those of the new fonts.
*For:* all valid signs, all font tables with smaller fonts whose heights are multiples of the height of a character cell (or with no cells), all messages of a length which the signs can measure.

*How:* The checks of C93 are compared on both signs: fonts and characters that were found are found (fontOf_smaller, defined_smaller), widths and heights are not larger (advance_smaller, gap_smaller, lineWidth_smaller, linesHeight_smaller), and no text is above the sign when fonts fit the cells (not_above); all other checks do not depend on fonts.

*Result:* C134_smaller, C134_spacings; C134_cells shows that fonts lower than the cells of a character-matrix sign make rendering panic (for text at the middle, see C44).

*Theorems:* Props/Smaller.lean: `C134_smaller`, `C134_spacings`, `C134_cells`.
*Axioms:* Classical.choice, Quot.sound, propext.

### C135 colors of text do not move anything (proved)

*Claim:* When colors of text ([cf] tags) of a message are replaced with other colors that the sign has, a message that is shown is still shown: with as many pages, of the same sizes and times, and each pixel that differs shows a color of text (told by a [cf] tag, or that of the sign) before and after, or (on signs without 24-bit colors) is in the box of a graphic with one bit for each pixel, which is drawn in the color of text.  Whether a message is shown does not depend on which of the colors of the sign its text has.
*For:* all valid signs, all pairs of messages (of a length which the sign can measure) which differ only in the colors of [cf] tags.

*How:* Values of both messages are compared one by one (Retinted); the texts of both have the same pieces but for the color (pieces_tint), so checks agree (textStops_tighter, of which the spacings are equal), and the exact places of C91 agree since they do not depend on the color (exactX_untint, exactY_untint); pixels of texts are then compared in order (textPx_tint), and layers of drawings off graphics of one bit (layered_tint).

*Result:* C135_retinted, C135_accepted; C135_graphics: graphics of one bit for each pixel do change, and colors that the sign does not have are refused.

*Theorems:* Props/Tint.lean: `C135_retinted`, `C135_accepted`, `C135_graphics`.
*Axioms:* Classical.choice, Quot.sound, propext.

### C136 replacing colors of a message only recolors its pixels (proved)

*Claim:* When colors of a message ([cf], [cb], [pb] and [cr] tags) are replaced with other colors that the sign has, a message that is shown is still shown: with as many pages, of the same sizes and times, and each pixel that differs shows a replaced color before and the color that replaces it after.  In particular, on signs with 24-bit colors, if a color a is replaced with b, each pixel that differs shows a before and b after.  Whether a message is shown does not depend on which of the colors of the sign it has.
*For:* all valid signs, all pairs of messages (of a length which the sign can measure) which differ only in colors of tags, all relations between old and new colors; without 24-bit colors, all pixels off graphics of one bit.

*How:* Values of both messages are compared one by one (Dyed); checks of both agree (paint_tint, layout_tint, backgroundFault_tint, textStops_tighter), places do not depend on colors (exactX_untint), texts and layers are compared in order (textPx_tint, layered_tint), with colors of pages that have values on signs with 24-bit colors (HasValue).

*Result:* C136_dyed, C136_accepted, C136_replace; C136_bits: without 24-bit colors, a graphic of one bit shows nothing in the default colors of a sign, so that a replaced color uncovers what is behind.

*Theorems:* Props/Tint.lean: `C136_dyed`, `C136_accepted`, `C136_replace`, `C136_bits`.
*Axioms:* Classical.choice, Quot.sound, propext.

### C137 blanks at the free ends of lines are not seen (proved)

*Claim:* Of two messages with the same tags and any other texts, a pixel differs only where it is lit by a text that is moved by another text of its line, or that is another one itself and does not differ only by blank characters after text at the left or before text at the right.  In particular, on signs with text at the left, blank characters at the ends of lines can be left out of every message without tags of justification that is shown: it is shown with the very same pages.  On signs with text at the right, the same holds of blank characters at the beginnings of lines.
*For:* all valid signs whose characters have a width, all pairs of shown messages with the same tags (with any texts); for the second part all messages without [jl] and [jp] tags and any number of blanks at the ends (or beginnings) of lines, pages and text rectangles.

*How:* Blank characters light nothing (textLit_after, textLit_before), so texts with blanks at a free end light the same pixels (lightsAt_after, lightsAt_before), and texts on other sides of them do not move (exactX_right).  A text at the end of a line has the largest number on its line (padded_last), so it moves no other text; at the right, the first text of a line has the smallest number (started_first).

*Result:* C137_seen, C137_lines, C137_trimmed, C137_right.  In the center, blanks move the text, and with blanks a message may be too wide (examples beside the theorems).

*Theorems:* Props/Pad.lean: `C137_seen`, `C137_lines`, `C137_trimmed`, `C137_right`.
*Axioms:* Classical.choice, Quot.sound, propext.

### C138 another text pushes the texts of its line by the difference of the widths (proved)

*Claim:* Two messages have the same values, but for one text on the last line (the only line of the last page or text rectangle), and are both shown.  Then the last pages are composed, over the same background, of three parts from left to right: the texts before it, the text, and the texts after it.  The first and the last part are the same in both pages; each part begins exactly where the one before ends (with the gap of the character spacing), and the line begins where its justification puts a line of its width.  In particular at the left nothing before the text changes and everything after it is moved by the difference of the widths; at the right nothing after the text changes and everything before it is moved.
*For:* all valid signs, all shown messages, any texts, fonts, colors and spacings before and after the changed text on its line; left, right and center justification (center on signs without character cells).

*How:* The texts of one line are numbered in order (numbered_stays), so a text counts for the places of the texts after it only (before_restr), by its width (width_restr for the whole line), and gaps depend on fonts and spacings, not on texts (before_prev).  The parts are pictures of texts moved to their left edge (over_part), which are the same since the places are (textDrawn_push).

*Result:* C138_parts, C138_left, C138_right.  The widths are those of Spec/Layout (SpanWidth, LineWidth).  On signs with character cells, centered lines are put at the edge of a cell and so may move by a cell; these are left out.

*Theorems:* Props/Push.lean: `C138_parts`, `C138_left`, `C138_right`.
*Axioms:* Classical.choice, Quot.sound, propext.

### C139 the spacing of a new line moves the lines below it by the difference (proved)

*Claim:* Two messages have the same values, but for the spacing s of one [nls] tag on the last page (or text rectangle), and are both shown on a full matrix sign.  Then the last pages are composed, over the same background, of two blocks: the lines above the tag and the lines below it.  Both blocks look the same in both pages, and exactly s rows are between them (if the tag does not tell the spacing: the mean of the line spacings of the fonts of the lines above and below, rounded up).  Messages with the same number of rows between are shown the same, so a spacing that is not told can be told.  The height of the text changes by the difference of the spacings, and the text stands where the page justification puts text of its height.  In particular, at the top nothing above the tag changes, nothing is drawn between the blocks, and everything below is moved down by the difference; at the bottom nothing below the tag changes and everything above is moved up.
*For:* all valid signs without character cells, all shown messages with one page justification on the text (top, middle or bottom) and tags in order, any number of lines above and below, any fonts, colors, spacings.

*How:* A message with the other spacing has the same texts, but for the spacing of the texts on the line after the tag (pieces_respan), with the same numbers (numbers_respan).  So the heights of all lines below change by the difference (linesHeight_respace), those above do not, and places from left to right do not depend on it (exactX_respan).  The blocks are pictures of texts moved to their upper edge (over_rows), which are the same since the places are (textDrawn_leading).

*Result:* C139_blocks, C139_top, C139_bottom, C139_gap.  The heights are those of Spec/Layout (linesHeight) and Spec/Stack (blockHeight).  Below the tag is a text; the tags are in order (Tidy), since texts out of order may be laid out over each other.

*Theorems:* Props/Leading.lean: `C139_blocks`, `C139_top`, `C139_bottom`, `C139_gap`.
*Axioms:* Classical.choice, Quot.sound, propext.

### C140 a sign with 24-bit colors shows what a sign with classic colors shows (proved)

*Claim:* A sign with the ten classic colors and a sign with 24-bit colors are alike otherwise, default colors included.  Every message that the former shows without error is shown by the latter with exactly the same pages (every pixel, every time, ON and OFF alike), unless it shows graphics of one bit for each pixel (which signs with classic colors do not draw in default colors); with such graphics, pages have the same sizes and times still, and each pixel is the same or has a default color on the sign with 24-bit colors.  Messages that give colors by number only have the same results on both signs throughout: the same pages, the same errors at the same place, and the same panics.
*For:* all pairs of such signs with any fonts, graphics, sizes and defaults; all messages (for shown messages: the signs are valid and the message has at most 255 characters).

*How:* A relation between the color contexts of both signs (SisterCtx: alike but for the scheme, current colors are numbers or the default) is kept by every step (sister_sim), so that next_rel of C76 with equality of pixels gives the same results.  Shown messages have colors that the sign has (shown_colorOk of C136), thus no colors by parts.

*Result:* C140_same, C140_panics, C140_shown, C140_bitmaps, C140_all; C140_graphics and C140_colors show that graphics of one bit and colors by red, green and blue parts do make a difference.

*Theorems:* Props/Sister.lean: `C140_same`, `C140_panics`, `C140_shown`, `C140_bitmaps`, `C140_all`, `C140_graphics`, `C140_colors`.
*Axioms:* Classical.choice, Quot.sound, propext.

### C141 color schemes decide about colors only (proved)

*Claim:* Two signs differ in nothing but colors (color scheme, default colors, colors of the LEDs).  For a message whose colors both signs have, they give the same errors, and as many pages of the same sizes and times; each pixel has the default foreground color of its sign on both, or the default background color on both, or what its sign shows for the same color, provided that graphics of one bit are used only if both signs or none have 24-bit colors, graphics of one byte for each pixel only with colors that both signs have or none, and graphics of 24 bits only if both signs have 24-bit colors; with graphics of 24 bits on other signs, pixels may also have the very same color on both.  A message that one sign shows without error is shown by the other exactly if the other has all colors of the message.  So every message for a monochrome sign of one bit is shown by signs of all color schemes, and every message for a sign with classic colors by all others but those; there are no other inclusions: for each other pair of color schemes the first sign, if it is valid and supports [cf] tags, shows a message that the second does not.
*For:* all pairs of such signs with any of the four color schemes, any fonts, graphics and sizes, all messages (for shown messages: the signs are valid and the message has at most 255 characters).

*How:* A relation between the color contexts of both signs (CrossCtx: the same current color that both have, or the default color of each) is kept by each step (cross_sim), also by graphics which may draw a pixel on one sign only (DrawnOver); the simulation of C76 gives the results.  Shown messages tell colors of the sign only (shown_hasColor).

*Result:* C141_alike, C141_colors, C141_graphics, C141_shown, C141_order, C141_upgrade, C141_strict.  The condition on graphics is SharedGraphic: a graphic of one bit shows nothing in default colors without 24-bit colors (C38), so it may have pixels on one sign only; graphics of 24 bits show their colors also on signs that do not have them (C36).

*Theorems:* Props/Schemes.lean: `C141_alike`, `C141_colors`, `C141_graphics`, `C141_shown`, `C141_order`, `C141_upgrade`, `C141_strict`.
*Axioms:* Classical.choice, Quot.sound, propext.

## Disagreements between code and claims

What the proofs found.  Each item has a theorem with a concrete input; line numbers are in the theorem's file.

Panics
* `[flé]`, `[mvé]`: `parse_flash_time`/`parse_moving_text` slice one byte (C03).  The same panic in `normalize`,
  `text_spans`, `join_text`, rendering and patterns.
* `font.validate` on two characters with the same surrogate number (C20).
* Sign dimensions near 65535: overflow in `validate` (C18), in pixel positions (C25).
* `text_width` over 65535 (C27).
* `tfon::parse` with more glyphs than the table has room for (C35).
* `[tr60000,1,60000,1]` and `[cr...]` beyond 16 bits: overflow in `Rectangle` (C48, C49).
* Rendering: supported but unimplemented tags (`[f..]`, `[fl]`, `[ms..]`, `[mv..]`), default font 0 with text, more than 255
  lines or texts, rectangles beyond 16 bits (C44; one built sign and message for each).
* `widths` with 256 fillable pages: overflow of the `u8` number (C55).

Endless loops
* `rect_lines` with default font 0 of height 0 (C26).
* `Pages`: after `check_unsupported` fails, `next` gives the same error forever (C50).  A `for` loop that does not stop at
  the first error does not end.  Other errors are not repeated: after `TextTooBig`
  the next page follows, and after an unsupported justification the rest of the message is dropped (C50_after_error).

Wrong results
* `[hc]` is written in decimal and read in hexadecimal: `normalize` changes or loses such characters, patterns too
  (C06, C07, C08, C11, C56).
* `normalize` drops a whole text span with an invalid character, though its comment says the character (C61).
* 8-bit monochrome levels wrap when background is brighter than foreground (C15).
* Sign dimension check accepts too many in release builds, by wrap-around (C18).
* `Font::width`: fixed width is only found when unused slots have the same width (C29).
* `text_width` and `character` find NUL in unused slots (C27).
* 8-bit monochrome graphics are shown as classic color numbers (C36).
* 1-bit graphics in default colors are invisible on all but 24-bit signs (C38).
* OFF pages have the size of the last text rectangle (C39), not of the sign.
* Middle-justified text with character cells higher than the font is drawn outside of its rectangle; so is text in default
  font 0 (C43).
* Going back to an earlier line by two changes of page justification is accepted (C47).
* Texts overlap: after a redundant `[jl]` tag, left against right texts, `[jp]` followed by `[nl]`, top against bottom
  texts (C62, C63).
* A line after `[jp]` and `[nl]` is counted twice if it has two texts, so that text that fits is too big (C45).
* `fill` drops, merges or moves font tags of the pattern (C57), joins texts (C56), and returns nothing on signs that do not
  support `[np]` (C58, C60).
* A tfon font without characters is not read back (C34).
* Font names longer than 64 bytes are cut when a file is read; the font is then not found by its full name (C70, C105).
* `normalize` drops `[np]`, `[pb]`, `[cb]`, `[pt]` after the last text: pages, colors and times change (C71).  Texts
  overlapping because of a redundant `[jl]` tag do not overlap after normalizing, as the tag is removed (C71).
* `widths` does not look at `[sc]` tags, and font version IDs are not noticed before there is text: lines of the widths told
  may not be shown (C72).
* The BMP writer of the examples leaves the bytes which fill up the rows out of the file size of the header (C73).
* The rendering example panics before it writes anything: its sign of 140 by 28 pixels does not fit on the default face, and
  the error of the builder is unwrapped (C104).
* A sign may have pixels beyond its last whole character cell: text rectangles up to the edge (`[tr1,1,0,0]`) are refused
  there (C75).
* In release builds sums of widths of 65536 or more wrap around: a text that is much too wide is drawn without an error,
  overlapping or at a wrong place (C82).
* No character spacing is added in a text while its width is 0, but between two texts: with characters of width 0 it
  matters how a text is divided (C81).
* After the error of a tag of text the sign can not show (`[jl5]`, `[sc]` with character cells, ...) the rest of the message
  is dropped, all later pages included; after other errors the rest of a page with several text rectangles is given as a
  page of its own (C94, C95).

Not checked by the code, and not claimed
* `MultiCfg::validate` does not look at the default font and default justifications (see the hypotheses of C44, C67).
* `max_number_pages` and `max_multi_string_length` are never enforced.
* The comment of `Pattern` says that any tag makes an area not fillable; only texts and `[nl]` do.  `[hc41]` does not
  occupy an area either.
* `tfon::parse` returns fonts that do not validate (C70); bitmaps of height 0 at the begin of a file are not noticed.
* 24-bit graphics keep their colors on monochrome signs (C52 is about signs without such graphics).
* A `[cb]` tag within a page changes monochrome graphics after it, and the background of the whole page at once
  (the page is scanned for background tags first; C66).

## Wrong programs

`seeded/seed.py` applies one edit at a time to a copy of the model (outside of this directory), rebuilds, and records
which theorems fail.  An edit counts as noticed when a theorem of each broken claim fails (with the dependencies of
`Deps.txt`: a theorem fails also when a lemma it uses fails).  Results: `seeded/LOG.jsonl`.  What a failing proof does not
show is that the claim is false - a proof may be brittle; for each edit the claims listed as broken were chosen by hand
beforehand, by reasoning about inputs on which the edit changes the result.
