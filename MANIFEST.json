{
 "claims": [
  {
   "property": "C01",
   "status": "proved",
   "theorems": [
    "Ntcip.C01_split_lossless",
    "Ntcip.C01_slices_is_iteration"
   ],
   "note": "All strings; iteration is the Iterator::next relation, its end and the concatenation are proved."
  },
  {
   "property": "C02",
   "status": "proved",
   "theorems": [
    "Ntcip.C02_split_cuts_on_tag_boundaries",
    "Ntcip.C02_split_unique",
    "Ntcip.C02_no_adjacent_spans"
   ],
   "note": "All strings; also uniqueness: any cut on tag boundaries is the one split makes."
  },
  {
   "property": "C03",
   "status": "partial",
   "theorems": [
    "Ntcip.C03_item_panics_iff",
    "Ntcip.C03_panics_iff",
    "Ntcip.C03_no_panic_partial",
    "Ntcip.C03_ascii",
    "Ntcip.C03_false"
   ],
   "note": "Exact characterisation: normalize/text_spans/join_text panic iff an item is an [fl..]/[mv..] tag with a non-ASCII character where the code slices one byte; is_blank never panics without such an item. The full claim is false (C03_false: \"[fl\u00e9]\"); all-ASCII strings never panic (C03_ascii)."
  },
  {
   "property": "C04",
   "status": "proved",
   "theorems": [
    "Ntcip.C04_in_range",
    "Ntcip.C04_values_in_range"
   ],
   "note": "Every item of every string; ranges stated in Spec/Values.lean (InRange)."
  },
  {
   "property": "C05",
   "status": "proved",
   "theorems": [
    "Ntcip.C05_case_insensitive"
   ],
   "note": "All plain tag bodies without free text; acceptance and value agree for any two re-casings."
  },
  {
   "property": "C06",
   "status": "partial",
   "theorems": [
    "Ntcip.C06_roundtrip_partial",
    "Ntcip.C06_hex_partial",
    "Ntcip.C06_false"
   ],
   "note": "Every value of every item round-trips, except [hc] from 10 up, which is written in decimal and read in hexadecimal (C06_hex_partial is exact; C06_false)."
  },
  {
   "property": "C07",
   "status": "partial",
   "theorems": [
    "Ntcip.C07_idempotent_partial",
    "Ntcip.C07_false",
    "Ntcip.C07_iff"
   ],
   "note": "All strings without an [hc] of 10 or more; false otherwise (C07_false). C07_iff gives the exact condition: normalizing again changes nothing exactly when the message has no [hc] of 10 or more."
  },
  {
   "property": "C08",
   "status": "partial",
   "theorems": [
    "Ntcip.C08_well_formed_partial",
    "Ntcip.C08_false",
    "Ntcip.C08_iff"
   ],
   "note": "All strings without an [hc] of 10000 or more; false otherwise (C08_false). C08_iff gives the exact condition: all items of the normalized text are valid exactly when there is no [hc] of 10000 or more."
  },
  {
   "property": "C09",
   "status": "proved",
   "theorems": [
    "Ntcip.C09_text_kept",
    "Ntcip.C09_separator_false"
   ],
   "note": "All strings on which normalize does not panic (C03). With a non-empty separator the claim would be false (C09_separator_false), hence the empty separator in the statement."
  },
  {
   "property": "C10",
   "status": "proved",
   "theorems": [
    "Ntcip.C10_no_redundant",
    "Ntcip.C10_effect",
    "Ntcip.C10_effect_hex_partial"
   ],
   "note": "All strings: no redundant tag remains; every character and tag keeps its color, font and justification. C10_effect leaves hexadecimal characters out (C06); C10_effect_hex_partial includes the ones below 10."
  },
  {
   "property": "C11",
   "status": "partial",
   "theorems": [
    "Ntcip.C11_empty_iff",
    "Ntcip.C11_last_visible",
    "Ntcip.C11_kept",
    "Ntcip.C11_kept_hex_partial",
    "Ntcip.C11_false"
   ],
   "note": "Empty iff nothing visible; last item visible; all visible tags kept in order except [hc] from 10 up, which are changed or lost (C11_false). Text: C09."
  },
  {
   "property": "C12",
   "status": "proved",
   "theorems": [
    "Ntcip.C12_blank_iff",
    "Ntcip.C12_normalize"
   ],
   "note": "All strings."
  },
  {
   "property": "C13",
   "status": "proved",
   "theorems": [
    "Ntcip.C13_escape"
   ],
   "note": "All texts over U+0001..U+00FF."
  },
  {
   "property": "C14",
   "status": "proved",
   "theorems": [
    "Ntcip.C14_exact",
    "Ntcip.C14_tag_ignored"
   ],
   "note": "All strings on which text_spans does not panic; the only side condition is that the string before the tag does not end with an unfinished \"[\"."
  },
  {
   "property": "C15",
   "status": "partial",
   "theorems": [
    "Ntcip.C15_interpolation_partial",
    "Ntcip.C15_between",
    "Ntcip.C15_level0_iff",
    "Ntcip.C15_inverted",
    "Ntcip.C15_false",
    "Ntcip.C15_rgb_monochrome_8"
   ],
   "note": "Exact rounded-down interpolation, bounds and end points are proved when foreground >= background per component; the full claim is false when background > foreground (C15_false, C15_inverted)."
  },
  {
   "property": "C16",
   "status": "proved",
   "theorems": [
    "Ntcip.C16_rgb_iff",
    "Ntcip.C16_set_foreground",
    "Ntcip.C16_set_background",
    "Ntcip.C16_rgb_value",
    "Ntcip.C16_message",
    "Ntcip.C16_no_page",
    "Ntcip.C16_reported"
   ],
   "note": "Acceptance by the color context for all schemes and colors (C16_rgb_iff, C16_set_*); a page with a color the scheme cannot show is never produced, wherever the tag is (C16_no_page), so a message rendered without error has only colors of the scheme (C16_message); the error is UnsupportedTagValue naming a tag with such a color when no text rectangle, graphic, color rectangle or unimplemented tag comes before it (C16_reported; those can fail first with their own error)."
  },
  {
   "property": "C17",
   "status": "proved",
   "theorems": [
    "Ntcip.C17_values",
    "Ntcip.C17_from_u8_range",
    "Ntcip.C17_round_trip",
    "Ntcip.C17_injective"
   ],
   "note": "All byte values and all classic colors."
  },
  {
   "property": "C18",
   "status": "partial",
   "theorems": [
    "Ntcip.C18_checked_accepts_iff",
    "Ntcip.C18_validate_partial",
    "Ntcip.C18_checked_panics_iff",
    "Ntcip.C18_checked_panics",
    "Ntcip.C18_wrapping_iff",
    "Ntcip.C18_wrapping_no_panic",
    "Ntcip.C18_wrapping_false"
   ],
   "note": "Exact acceptance in checked arithmetic and without overflow; with overflow the claim is false (panic or wrong acceptance, C18_checked_panics, C18_wrapping_false)."
  },
  {
   "property": "C19",
   "status": "proved",
   "theorems": [
    "Ntcip.C19_multi_cfg_validate"
   ],
   "note": "All configurations."
  },
  {
   "property": "C20",
   "status": "partial",
   "theorems": [
    "Ntcip.C20_error_iff",
    "Ntcip.C20_panics_iff",
    "Ntcip.C20_accepts_iff",
    "Ntcip.C20_no_panic_partial",
    "Ntcip.C20_false"
   ],
   "note": "Exact acceptance is proved for all tables; that it never panics only without duplicate surrogate character numbers, since the claim is false with them (C20_false). C20_error_iff: exactly which error for which table; C20_panics_iff: exactly when it panics."
  },
  {
   "property": "C21",
   "status": "proved",
   "theorems": [
    "Ntcip.C21_error_iff",
    "Ntcip.C21_accepts_iff",
    "Ntcip.C21_graphic_iff"
   ],
   "note": "All tables and sizes. C21_error_iff: exactly which error for which table."
  },
  {
   "property": "C22",
   "status": "proved",
   "theorems": [
    "Ntcip.C22_built_sign_valid",
    "Ntcip.C22_build_succeeds_iff"
   ],
   "note": "All builders."
  },
  {
   "property": "C23",
   "status": "proved",
   "theorems": [
    "Ntcip.C23_rebuild",
    "Ntcip.C23_graphic_lookup",
    "Ntcip.C23_font_lookup"
   ],
   "note": "All built signs."
  },
  {
   "property": "C24",
   "status": "proved",
   "theorems": [
    "Ntcip.C24_font_lookup",
    "Ntcip.C24_graphic_lookup",
    "Ntcip.C24_font_update",
    "Ntcip.C24_graphic_update",
    "Ntcip.C24_font_room",
    "Ntcip.C24_font_insertions",
    "Ntcip.C24_graphic_insertions"
   ],
   "note": "Any sequence of insertions."
  },
  {
   "property": "C25",
   "status": "partial",
   "theorems": [
    "Ntcip.C25_monotone",
    "Ntcip.C25_position_partial",
    "Ntcip.C25_inside_partial",
    "Ntcip.C25_strict_partial",
    "Ntcip.C25_centred_partial",
    "Ntcip.C25_false"
   ],
   "note": "f32 is modelled as rationals with IEEE round-to-nearest-even at every operation (Model/F32.lean). C25_monotone is complete: all signs, all indices. C25_position_partial: every pixel of a sign is within w/2^18 of its exact center (Spec/Position.lean); C25_inside_partial, C25_strict_partial, C25_centred_partial: strictly inside, distinct, symmetric. Conditions: pixels plus gaps fit in 16 bits, pitch not zero; C25_false has a built sign and a panic or a pixel beyond the face without them."
  },
  {
   "property": "C26",
   "status": "partial",
   "theorems": [
    "Ntcip.C26_rect_lines_partial",
    "Ntcip.C26_endless_iff",
    "Ntcip.C26_spec_unique",
    "Ntcip.C26_false"
   ],
   "note": "Maximality and termination are proved when the font and rectangle heights are positive; with default font 0 of height 0 the loop does not end (C26_false). C26_endless_iff: exactly when it does not end."
  },
  {
   "property": "C27",
   "status": "partial",
   "theorems": [
    "Ntcip.C27_ok_iff",
    "Ntcip.C27_err_iff",
    "Ntcip.C27_total_partial",
    "Ntcip.C27_panics_iff",
    "Ntcip.C27_false",
    "Ntcip.C27_character_iff",
    "Ntcip.C27_nul_defined"
   ],
   "note": "Exact sum and first undefined character are proved whenever the sum fits u16; otherwise it overflows (C27_false). NUL is found in unused slots (C27_nul_defined). C27_panics_iff: exactly when it panics."
  },
  {
   "property": "C28",
   "status": "proved",
   "theorems": [
    "Ntcip.C28_glyph_drawing",
    "Ntcip.C28_is_pixel_lit",
    "Ntcip.C28_inside_box",
    "Ntcip.C28_valid_fonts"
   ],
   "note": "Any character, page and position inside the page."
  },
  {
   "property": "C29",
   "status": "partial",
   "theorems": [
    "Ntcip.C29_iff",
    "Ntcip.C29_unused",
    "Ntcip.C29_width_sound",
    "Ntcip.C29_width_partial",
    "Ntcip.C29_false"
   ],
   "note": "Proved for fonts whose unused slots have the same width; false with ordinary unused slots of width 0 (C29_false). C29_iff gives the exact condition, C29_unused what unused slots do to it."
  },
  {
   "property": "C30",
   "status": "proved",
   "theorems": [
    "Ntcip.C30_font_version_id",
    "Ntcip.C30_graphic_version_id"
   ],
   "note": "All fonts and graphics; little-endian hosts."
  },
  {
   "property": "C31",
   "status": "proved",
   "theorems": [
    "Ntcip.C31_graphic_burst",
    "Ntcip.C31_graphic_byte",
    "Ntcip.C31_font_burst",
    "Ntcip.C31_font_byte"
   ],
   "note": "Any 16-bit burst in the bitmap data."
  },
  {
   "property": "C32",
   "status": "proved",
   "theorems": [
    "Ntcip.C32_font_bytes",
    "Ntcip.C32_graphic_bytes",
    "Ntcip.C32_font_bytes_iff"
   ],
   "note": "Injectivity of the hashed bytes on valid content."
  },
  {
   "property": "C33",
   "status": "proved",
   "theorems": [
    "Ntcip.C33_length_decodes",
    "Ntcip.C33_uint_decodes",
    "Ntcip.C33_length_shortest",
    "Ntcip.C33_uint_shortest"
   ],
   "note": "All lengths below 2^64 and u8/u16 values."
  },
  {
   "property": "C34",
   "status": "partial",
   "theorems": [
    "Ntcip.C34_empty",
    "Ntcip.C34_round_trip_iff",
    "Ntcip.C34_write_iff",
    "Ntcip.C34_round_trip_partial",
    "Ntcip.C34_false"
   ],
   "note": "Round trip proved for fonts with at least one character; false for fonts without (C34_false). The text layer of the tfon crate is not modelled. C34_empty and C34_round_trip_iff give the exact condition."
  },
  {
   "property": "C35",
   "status": "partial",
   "theorems": [
    "Ntcip.C35_panic_iff",
    "Ntcip.C35_ok_iff",
    "Ntcip.C35_no_panic_partial",
    "Ntcip.C35_false"
   ],
   "note": "No panic proved when the input has at most C glyphs; otherwise it panics (C35_false). The text layer of the tfon crate is not modelled. C35_panic_iff and C35_ok_iff tell exactly which property sequences panic and which are accepted."
  },
  {
   "property": "C36",
   "status": "partial",
   "theorems": [
    "Ntcip.C36_decoding_partial",
    "Ntcip.C36_no_panic",
    "Ntcip.C36_false",
    "Ntcip.C36_exact",
    "Ntcip.C36_level_iff"
   ],
   "note": "Dimensions, bounds and transparency proved for every valid graphic; decoding for 1-bit, classic and 24-bit graphics. False for monochrome 8-bit graphics, whose levels are shown as classic color numbers (C36_false). C36_exact tells the color of each pixel for every valid graphic, C36_level_iff for which levels of monochrome 8-bit graphics it is the right one."
  },
  {
   "property": "C37",
   "status": "proved",
   "theorems": [
    "Ntcip.C37_too_big_iff",
    "Ntcip.C37_placement"
   ],
   "note": "All valid graphics, pages, positions and color contexts."
  },
  {
   "property": "C38",
   "status": "partial",
   "theorems": [
    "Ntcip.C38_default_colors_partial",
    "Ntcip.C38_invisible",
    "Ntcip.C38_false"
   ],
   "note": "Proved on 24-bit signs; on all other signs a 1-bit graphic with default colors is invisible (C38_invisible, C38_false)."
  },
  {
   "property": "C39",
   "status": "partial",
   "theorems": [
    "Ntcip.C39_exact",
    "Ntcip.C39_on_page_size_partial",
    "Ntcip.C39_no_tr_partial",
    "Ntcip.C39_off_page_false"
   ],
   "note": "ON pages have the size of the sign (C39_on_page_size_partial, all messages), and so have all pages of a message without [tr] (C39_no_tr_partial). False for OFF pages after [tr]: they get the size of the last text rectangle (C39_off_page_false). C39_exact gives the sizes of all pages, ON and OFF, of every message without errors."
  },
  {
   "property": "C40",
   "status": "proved",
   "theorems": [
    "Ntcip.C40_page_times"
   ],
   "note": "Kind, duration and, for OFF pages, color of all pages of a message without errors; the expected sequence is computed by Spec.schedule from the parsed values."
  },
  {
   "property": "C41",
   "status": "proved",
   "theorems": [
    "Ntcip.C41_page_count",
    "Ntcip.C41_ends"
   ],
   "note": "Count of ON pages (C41_page_count) and termination of runs without errors and panics (C41_ends)."
  },
  {
   "property": "C42",
   "status": "proved",
   "theorems": [
    "Ntcip.C42_rejected",
    "Ntcip.C42_message",
    "Ntcip.C42_tag_name",
    "Ntcip.C42_no_tag"
   ],
   "note": "Per page (C42_rejected) and for whole messages (C42_message).  [f0] has no tag and is not caught by the check; it panics later (see C44)."
  },
  {
   "property": "C43",
   "status": "partial",
   "theorems": [
    "Ntcip.C43_boxes",
    "Ntcip.C43_inside_iff",
    "Ntcip.C43_text_inside",
    "Ntcip.C43_rectangle_inside",
    "Ntcip.C43_text_partial",
    "Ntcip.C43_false"
   ],
   "note": "Text of every drawn page is inside of its text rectangle for all messages on a sign with valid fonts, unless a middle-justified page has character cells higher than the fonts; C43_false gives the two counterexamples (cell truncation with middle justification, default font number 0). C43_boxes, C43_inside_iff, C43_text_inside: without condition on fonts, a text is inside of its rectangle exactly unless it is in the vertical middle and sticks out at the top (Spec.SticksOut)."
  },
  {
   "property": "C44",
   "status": "partial",
   "theorems": [
    "Ntcip.C44_no_panic_partial",
    "Ntcip.C44_built_partial",
    "Ntcip.C44_false"
   ],
   "note": "C44_no_panic_partial: any number of calls of Pages::next give pages or errors for every sign with valid tables, dimensions below 65535, default font from 1 on, supported default justifications, and every message without a tag on which the parser panics, without rectangles beyond 16 bits, without supported-but-unimplemented tags, with sizes in 16 bits (all messages up to 128 code points: sizesOk_short). C44_built_partial: the same for signs of the builder and ASCII messages. The full claim is false: C44_false has a built sign and a panic for each of these conditions. C93 has the exact condition, in both directions, without the conditions on tags."
  },
  {
   "property": "C45",
   "status": "partial",
   "theorems": [
    "Ntcip.C45_exact",
    "Ntcip.C45_fits_partial",
    "Ntcip.C45_too_big_partial",
    "Ntcip.C45_drawn",
    "Ntcip.C45_false"
   ],
   "note": "C45_drawn: text that is drawn fits (every sign, every list of spans). C45_fits_partial, C45_too_big_partial: both directions for spans whose fonts and characters are defined and within u16 (Spec.Sound), lines dense as produced by [nl], middle-justified text on character cells only under the cell condition. The full claim is false (C45_false): after a [jp] change followed by [nl] a line of two texts is counted twice, and sums of 65536 or more panic. C45_exact: the true law for texts of one rectangle with defined fonts and characters and no panic, with or without lines counted twice: drawn iff every line fits the width and the total height as counted (Spec.totalHeight) fits the height, otherwise TextTooBig."
  },
  {
   "property": "C46",
   "status": "proved",
   "theorems": [
    "Ntcip.C46_horizontal",
    "Ntcip.C46_vertical"
   ],
   "note": "All spans, fonts and rectangles on signs without character cells."
  },
  {
   "property": "C47",
   "status": "partial",
   "theorems": [
    "Ntcip.C47_adjacent",
    "Ntcip.C47_rejected",
    "Ntcip.C47_page",
    "Ntcip.C47_line_partial",
    "Ntcip.C47_only_those",
    "Ntcip.C47_false"
   ],
   "note": "Exact for adjacent spans and for page justification; within a line when line numbers do not decrease. C47_false: a message that goes back to line 0 by changing the page justification twice is accepted."
  },
  {
   "property": "C48",
   "status": "partial",
   "theorems": [
    "Ntcip.C48_accepted_partial",
    "Ntcip.C48_overflow",
    "Ntcip.C48_false"
   ],
   "note": "Exact for every rectangle without u16 overflow; C48_overflow: all others panic. Sign of 0 by 0 pixels excluded."
  },
  {
   "property": "C49",
   "status": "partial",
   "theorems": [
    "Ntcip.C49_fill_partial",
    "Ntcip.C49_tag",
    "Ntcip.C49_false"
   ],
   "note": "Exact pixels for every rectangle without u16 overflow, which is a panic (C49_false)."
  },
  {
   "property": "C50",
   "status": "partial",
   "theorems": [
    "Ntcip.C50_ends_iff",
    "Ntcip.C50_forever",
    "Ntcip.C50_shown_ends_partial",
    "Ntcip.C50_dichotomy",
    "Ntcip.C50_text_ends_partial",
    "Ntcip.C50_after_error",
    "Ntcip.C50_ends_partial",
    "Ntcip.C50_error_forever",
    "Ntcip.C50_false"
   ],
   "note": "Bound for runs without errors (C50_ends_partial). False after errors: the same error is repeated forever (C50_error_forever, C50_false). C50_dichotomy holds for all messages: the items end within 2(n+1), n being the number of items of the message, or after at most 2(n+1)+1 all are the same error. C50_text_ends_partial names messages which always end; C50_after_error shows the three courses after an error. C50_ends_iff: without panics, the iterator ends exactly when no page reached has an early fault (item, background color, or color, color rectangle or graphic before the first text rectangle); C50_forever: such an error is repeated; C50_shown_ends_partial: messages of valid, supported items with colors and graphics the sign can show always end, whatever the errors of their texts."
  },
  {
   "property": "C51",
   "status": "proved",
   "theorems": [
    "Ntcip.C51_rejected",
    "Ntcip.C51_accepted",
    "Ntcip.C51_message"
   ],
   "note": "C51_rejected: 50 or more; C51_accepted and C51_message: at most 49."
  },
  {
   "property": "C52",
   "status": "proved",
   "theorems": [
    "Ntcip.C52_two_colors"
   ],
   "note": "Every item of every run, also after errors."
  },
  {
   "property": "C53",
   "status": "proved",
   "theorems": [
    "Ntcip.C53_carry",
    "Ntcip.C53_reset"
   ],
   "note": "C53_carry: attributes, background and times are folds over everything rendered; C53_reset: the rest has no influence on the next page."
  },
  {
   "property": "C54",
   "status": "proved",
   "theorems": [
    "Ntcip.C54_lines_count"
   ],
   "note": "For every sign, pattern and message, valid or not, for which neither call panics."
  },
  {
   "property": "C55",
   "status": "partial",
   "theorems": [
    "Ntcip.C55_ok_iff",
    "Ntcip.C55_widths_partial",
    "Ntcip.C55_total_partial",
    "Ntcip.C55_false"
   ],
   "note": "Exact description of widths (rectangles, numbers, width, font number) for patterns in which no item panics, on signs that support [np] (without: C60). C55_false: a pattern with 256 fillable pages overflows the u8 rectangle number. C55_ok_iff: widths are given exactly when no item panics, there are at most 255 fillable areas and their rectangles have lines."
  },
  {
   "property": "C56",
   "status": "partial",
   "theorems": [
    "Ntcip.C56_round_trip_partial",
    "Ntcip.C56_fonts_partial",
    "Ntcip.C56_false",
    "Ntcip.C56_hc_false"
   ],
   "note": "For valid patterns on signs that support [np], lines that consist of text, [cf], [jl] and [sc] tags, when dropping the font tags does not bring texts together and hexadecimal characters are single digits. C56_false, C56_hc_false: witnesses without these hypotheses."
  },
  {
   "property": "C57",
   "status": "partial",
   "theorems": [
    "Ntcip.C57_exact",
    "Ntcip.C57_kept_partial",
    "Ntcip.C57_fonts_partial",
    "Ntcip.C57_canonical_partial",
    "Ntcip.C57_false"
   ],
   "note": "All tags and texts but font tags are kept in order (all valid patterns); font tags too when they are at the end of fillable areas; canonical form when nothing is fillable and there are no font tags. C57_false: font tags are dropped, merged or moved otherwise. Signs that support [np]. C57_exact: the true law for every valid pattern: what fill gives is exactly the text described by Spec.Filled (areas, lines, font tags put off), and nothing else is."
  },
  {
   "property": "C58",
   "status": "partial",
   "theorems": [
    "Ntcip.C58_invalid",
    "Ntcip.C58_nonempty_partial",
    "Ntcip.C58_false"
   ],
   "note": "First half for all signs and patterns; second half for signs that support [np]. C58_false: on other signs every pattern gives an empty string."
  },
  {
   "property": "C59",
   "status": "proved",
   "theorems": [
    "Ntcip.C59_filled",
    "Ntcip.C59_capacity"
   ],
   "note": "Exact output of fill for valid patterns on signs that support [np] (on other signs fill writes nothing, C60); lines beyond the capacity have no influence."
  },
  {
   "property": "C60",
   "status": "partial",
   "theorems": [
    "Ntcip.C60_fill_false",
    "Ntcip.C60_blank_false",
    "Ntcip.C60_widths_partial"
   ],
   "note": "False: on every sign without [np], fill returns nothing for every pattern (C60_fill_false) and the blank page is not fillable (C60_blank_false). C60_widths_partial: widths enumerates all areas but the last."
  },
  {
   "property": "C61",
   "status": "partial",
   "theorems": [
    "Ntcip.C61_span_partial",
    "Ntcip.C61_false"
   ],
   "note": "A span is kept whole or dropped whole; the documented removal of single characters is false (C61_false)."
  },
  {
   "property": "C62",
   "status": "partial",
   "theorems": [
    "Ntcip.C62_side_by_side_partial",
    "Ntcip.C62_false"
   ],
   "note": "Proved for text rectangles with tidy values (justification from left to right on a line), for texts with one justification. The full claim is false: C62_false (redundant [jl] tag, left against right text)."
  },
  {
   "property": "C63",
   "status": "partial",
   "theorems": [
    "Ntcip.C63_stacked_partial",
    "Ntcip.C63_false"
   ],
   "note": "Proved for text rectangles with tidy values, for lines with one page justification. The full claim is false: C63_false ([jp] followed by [nl], top against bottom text)."
  },
  {
   "property": "C64",
   "status": "proved",
   "theorems": [
    "Ntcip.C64_drawn_once",
    "Ntcip.C64_places",
    "Ntcip.C64_tidy",
    "Ntcip.C64_pieces"
   ],
   "note": "For every message: the list of texts with attributes and lines (C64_pieces), each drawn once (C64_drawn_once), at the place of its line and number (C64_places, ExactX and ExactY), exactly the pixels of its characters change to its color. For tidy values these are the places of C62 and C63 (C64_tidy); in others texts may overlap (C62_false, C63_false)."
  },
  {
   "property": "C65",
   "status": "proved",
   "theorems": [
    "Ntcip.C65_version_ids"
   ],
   "note": "For every ON page that next gives without earlier errors: all fonts, characters and graphics it needs exist, with the version IDs the tags give."
  },
  {
   "property": "C66",
   "status": "proved",
   "theorems": [
    "Ntcip.C66_page",
    "Ntcip.C66_graphics"
   ],
   "note": "For every ON page that next gives without earlier errors: background, color rectangles, graphics, text rectangles in order, every text drawn once, at the place given by its number and line (ExactX, ExactY)."
  },
  {
   "property": "C67",
   "status": "proved",
   "theorems": [
    "Ntcip.C67_page_iff",
    "Ntcip.C67_message_iff"
   ],
   "note": "Both directions, for one page at any time before an error (C67_page_iff) and for whole messages (C67_message_iff). Pages out of order and pages of more than 255 values are outside of the claim: for the panics there see C44, for the order of justification C47."
  },
  {
   "property": "C68",
   "status": "partial",
   "theorems": [
    "Ntcip.C68_intersection_partial",
    "Ntcip.C68_contains_partial",
    "Ntcip.C68_intersection_panics_iff",
    "Ntcip.C68_contains_panics_iff",
    "Ntcip.C68_false"
   ],
   "note": "For rectangles whose right and bottom edges fit in 16 bits, in either build profile. Missing: others, where the full claim is false (C68_false: a panic with overflow checks, an empty intersection without). contains of a rectangle without pixels is compared by its edges. C68_intersection_panics_iff, C68_contains_panics_iff: exactly when they panic."
  },
  {
   "property": "C69",
   "status": "proved",
   "theorems": [
    "Ntcip.C69_offsets",
    "Ntcip.C69_end"
   ],
   "note": "The iterator is modelled again with its byte offset (Model/MultiStr.lean) and shown to agree with the item based functions the rest of the model uses."
  },
  {
   "property": "C70",
   "status": "proved",
   "theorems": [
    "Ntcip.C70_parse",
    "Ntcip.C70_name",
    "Ntcip.C70_heights",
    "Ntcip.C70_valid"
   ],
   "note": "The text layer of the tfon crate is not modelled (see C34). Bitmaps of height 0 at the begin of a file are not noticed by the height check; C70_heights excludes them, C70_parse does not. Files with more characters than slots are the subject of C35. C70_name: the name is the longest beginning of the last name given (without NUL) that fits 64 bytes."
  },
  {
   "property": "C71",
   "status": "partial",
   "theorems": [
    "Ntcip.C71_tidy_partial",
    "Ntcip.C71_pages_partial",
    "Ntcip.C71_false",
    "Ntcip.C71_joined_false"
   ],
   "note": "Two partial theorems, both for messages rendered without errors, ending in something visible, without [hc] of two or more digits. C71_tidy_partial: messages whose values are in order, also with removed tags between texts, if no character has width 0 and (on signs with character cells) no text is centered. C71_pages_partial: also values not in order, if no [jl] is repeated after text and no removed tag stands between two texts. In general the claim is false (C71_false): trailing [np] and [pb] are dropped, [hc41] becomes [hc65], a repeated [jl2] makes texts overlap before but not after normalizing, and joined centered texts are aligned to cells together. C71_joined_false: with texts that overlap because a tag repeats the justification in effect, joining two of them moves one.  Missing: joined texts in other messages that are not in order."
  },
  {
   "property": "C72",
   "status": "partial",
   "theorems": [
    "Ntcip.C72_shown_partial",
    "Ntcip.C72_false"
   ],
   "note": "Proved for signs that are valid with all font heights multiples of the cell height, and valid patterns in order (as for C67) without [sc] and [hc] tags, with font tags only at the end of fillable areas and right version IDs, and at most 255 values after filling. The claim is false (C72_false) with [sc] (widths ignore it), [hc] (no text for fill), font tags before text (dropped by fill) and wrong version IDs (not noticed before there is text)."
  },
  {
   "property": "C73",
   "status": "partial",
   "theorems": [
    "Ntcip.C73_writes_partial",
    "Ntcip.C73_file_partial",
    "Ntcip.C73_pixels_partial",
    "Ntcip.C73_outside",
    "Ntcip.C73_size_iff",
    "Ntcip.C73_false",
    "Ntcip.C73_overflow"
   ],
   "note": "Headers, number of bytes and every pixel read back, for every raster whose size fits 32 bits; larger ones are a panic (C73_overflow). The file size told by the header is right exactly if the width is a multiple of 4 (C73_size_iff, C73_false)."
  },
  {
   "property": "C74",
   "status": "proved",
   "theorems": [
    "Ntcip.C74_unused",
    "Ntcip.C74_order",
    "Ntcip.C74_store_font",
    "Ntcip.C74_settings",
    "Ntcip.C74_more_tags",
    "Ntcip.C74_pattern"
   ],
   "note": "Numbers must be unique and the default font not 0, as validation of tables requires; C74_store_font is about tables changed through font_mut. C74_settings shows that the limits of a sign (pages, length of messages) are not enforced."
  },
  {
   "property": "C75",
   "status": "proved",
   "theorems": [
    "Ntcip.C75_steps",
    "Ntcip.C75_larger",
    "Ntcip.C75_cells",
    "Ntcip.C75_limit"
   ],
   "note": "The larger sign must have whole character cells (C75_cells: validation does not require it, and [tr1,1,0,0] is then refused) and less than 65535 pixels per side (C75_limit)."
  },
  {
   "property": "C76",
   "status": "proved",
   "theorems": [
    "Ntcip.C76_text",
    "Ntcip.C76_scheme",
    "Ntcip.C76_monochrome",
    "Ntcip.C76_tags"
   ],
   "note": "C76_scheme is about all messages on signs of one color scheme; 24-bit graphics only on 24-bit signs (elsewhere they keep their colors, C52). C76_text is about all schemes; with color tags signs of other schemes may give errors (C76_tags)."
  },
  {
   "property": "C77",
   "status": "partial",
   "theorems": [
    "Ntcip.C77_steps_partial",
    "Ntcip.C77_moved_partial",
    "Ntcip.C77_false",
    "Ntcip.C77_sizes"
   ],
   "note": "C77_moved_partial is for signs whose font heights are whole character cells (always so without character cells). Otherwise centered text may be above its rectangle, which panics at the top of the sign (C77_false). Rectangles must have a size (C77_sizes)."
  },
  {
   "property": "C78",
   "status": "proved",
   "theorems": [
    "Ntcip.C78_pages",
    "Ntcip.C78_yields",
    "Ntcip.C78_patterns",
    "Ntcip.C78_spelling",
    "Ntcip.C78_case"
   ],
   "note": "Pages, errors and panics of a message, and widths, fill and lines of a pattern, are functions of the values of its items. C78_case is the consequence for upper and lower case."
  },
  {
   "property": "C79",
   "status": "proved",
   "theorems": [
    "Ntcip.C79_earlier",
    "Ntcip.C79_appended",
    "Ntcip.C79_joined"
   ],
   "note": "C79_earlier also holds for messages with errors; C79_appended needs the attributes after the message to be the defaults, C79_joined is for messages without attribute tags."
  },
  {
   "property": "C80",
   "status": "proved",
   "theorems": [
    "Ntcip.C80_blank"
   ],
   "note": "C80_blank: pages are those of the schedule of C40 (kind, duration), all pixels have the background color of the page; ON pages have the size of the sign.  Hypothesis: white space characters of the fonts have no lit pixels (otherwise the claim is false)."
  },
  {
   "property": "C81",
   "status": "proved",
   "theorems": [
    "Ntcip.C81_pictures",
    "Ntcip.C81_accepted_iff",
    "Ntcip.C81_one_picture",
    "Ntcip.C81_same_look",
    "Ntcip.C81_rewritten",
    "Ntcip.C81_zero_width"
   ],
   "note": "C81_accepted_iff: when accepted.  C81_pictures and C81_one_picture: the pages are the unique picture of the look.  C81_same_look, C81_rewritten: messages of the same look show the same pages.  C81_zero_width shows that the claim is false with characters of width 0, as the code adds no character spacing in a text while its width is 0."
  },
  {
   "property": "C82",
   "status": "partial",
   "theorems": [
    "Ntcip.C82_same_partial",
    "Ntcip.C82_iff_partial",
    "Ntcip.C82_no_panic_partial",
    "Ntcip.C82_panics",
    "Ntcip.C82_widths_partial",
    "Ntcip.C82_text_rectangles",
    "Ntcip.C82_color_rectangles",
    "Ntcip.C82_false"
   ],
   "note": "C82_same_partial, C82_iff_partial, C82_no_panic_partial, C82_widths_partial: equal results whenever a build with overflow checks does not panic, so all claims on pages hold for release builds, too.  C82_panics: no additional panics.  C82_text_rectangles, C82_color_rectangles: rectangles whose edges overflow are rejected.  The rest of the claim is false (C82_false): a text more than 65535 pixels wide is accepted and drawn at a wrong place, as its width wraps around.  Rectangles off the sign, where the overflow is caught, are covered exactly by C109.  Missing: what else happens after other overflows (sums of widths or heights over 65535, more than 255 lines or texts)."
  },
  {
   "property": "C83",
   "status": "partial",
   "theorems": [
    "Ntcip.C83_error_partial",
    "Ntcip.C83_first_partial",
    "Ntcip.C83_tidy",
    "Ntcip.C83_kinds",
    "Ntcip.C83_false"
   ],
   "note": "C83_error_partial: each error (also after other errors) is that of a fault of the page; C83_first_partial: the same for the first error, with the attributes that the values before the page set; C83_tidy: without exception if the page is in order.  C83_kinds: the errors that are given at all.  The full claim is false (C83_false): TextTooBig is given for text that fits, if the lines of a page justification are not numbered without gaps, as offset_vert counts lines twice."
  },
  {
   "property": "C84",
   "status": "proved",
   "theorems": [
    "Ntcip.C84_item",
    "Ntcip.C84_unique",
    "Ntcip.C84_message",
    "Ntcip.C84_meaning"
   ],
   "note": "C84_item: acceptance and value of every string, exactly.  C84_unique and C84_meaning: the grammar of items and messages is not ambiguous.  C84_message: the values of a message.  Of note: versions may be `+` and 3 digits, `[f13,]` and `[pt3o]` have empty parameters, `[nl]` takes a single digit without sign."
  },
  {
   "property": "C85",
   "status": "proved",
   "theorems": [
    "Ntcip.C85_cells",
    "Ntcip.C85_unchecked"
   ],
   "note": "C85_cells.  C85_unchecked: the condition on fonts is needed, the sign builder accepts other fonts, and then text is not at cells."
  },
  {
   "property": "C86",
   "status": "proved",
   "theorems": [
    "Ntcip.C86_asked",
    "Ntcip.C86_plain",
    "Ntcip.C86_scheme",
    "Ntcip.C86_foreign"
   ],
   "note": "C86_asked, C86_plain, C86_scheme.  C86_foreign: a 24-bit graphic shows its colors on monochrome signs, and the sign is built without complaint."
  },
  {
   "property": "C87",
   "status": "proved",
   "theorems": [
    "Ntcip.C87_error_iff",
    "Ntcip.C87_panics_iff",
    "Ntcip.C87_never"
   ],
   "note": "C87_error_iff: exactly which error for which configuration (with overflow checks); C87_panics_iff: exactly when building panics instead (dimensions beyond 16 bits, surrogates used twice); C87_never: errors never given.  See C20_error_iff and C21_error_iff for the tables."
  },
  {
   "property": "C88",
   "status": "partial",
   "theorems": [
    "Ntcip.C88_shown_iff_partial"
   ],
   "note": "C88_shown_iff_partial, under the conditions of C72 on sign and pattern (no [sc] and [hc] tags, font tags at the end of fillable areas, right version IDs, in order; C72_false refutes the claim for others), and lines without brackets with characters 1 to 255."
  },
  {
   "property": "C89",
   "status": "partial",
   "theorems": [
    "Ntcip.C89_ignored",
    "Ntcip.C89_false",
    "Ntcip.C89_single_partial"
   ],
   "note": "The claim is false for every valid sign that supports [np] tags (C89_false): C89_ignored gives messages of any number of pages and any length that are rendered without errors; the limits are stored but not used (see also C74_settings), and TooManyPages is never given (C83_kinds). C89_single_partial: the limit on pages is kept by signs without [np] tags, as there is one page only."
  },
  {
   "property": "C90",
   "status": "proved",
   "theorems": [
    "Ntcip.C90_item",
    "Ntcip.C90_page",
    "Ntcip.C90_later",
    "Ntcip.C90_lines",
    "Ntcip.C90_unique"
   ],
   "note": "C90_page, C90_later: the error of every page, exactly, for the first error and for later ones; C90_item: single items; C90_lines: lines numbered without gaps are counted by their numbers; C90_unique: there is at most one first fault."
  },
  {
   "property": "C91",
   "status": "proved",
   "theorems": [
    "Ntcip.C91_page",
    "Ntcip.C91_same",
    "Ntcip.C91_result",
    "Ntcip.C91_place"
   ],
   "note": "C91_page: the raster of a page is the only one that Composed allows; C91_same: pages with the same values, attributes and background are the same; C91_result: together with C90 what next gives at any ON page; C91_place: places of texts are unique."
  },
  {
   "property": "C92",
   "status": "proved",
   "theorems": [
    "Ntcip.C92_first_error",
    "Ntcip.C92_pictures",
    "Ntcip.C92_unique",
    "Ntcip.C92_message",
    "Ntcip.C92_no_panic",
    "Ntcip.C92_built"
   ],
   "note": "C92_message (pages iff no page has a fault, and which), C92_first_error (which error), C92_unique (the description allows one list of pages), C92_no_panic / C92_built (hypotheses met by the messages of C44, and by signs of the builder). OFF pages have the size of the last text rectangle (see findings)."
  },
  {
   "property": "C93",
   "status": "proved",
   "theorems": [
    "Ntcip.C93_page",
    "Ntcip.C93_never",
    "Ntcip.C93_ends",
    "Ntcip.C93_message",
    "Ntcip.C93_unique",
    "Ntcip.C93_built"
   ],
   "note": "C93_ends (first error or panic of a message, both directions), C93_page (every page reached, also after errors), C93_never (no number of calls panics, exactly when no page reached has a panic as first stop), C93_message (C92 without its hypothesis that nothing panics), C93_unique, C93_built (signs of the builder). Outside of the claim: messages with more than 255 lines or texts or widths beyond 16 bits, default font 0 and unsupported default justifications (each panics, see C44_false)."
  },
  {
   "property": "C94",
   "status": "proved",
   "theorems": [
    "Ntcip.C94_given",
    "Ntcip.C94_built"
   ],
   "note": "C94_given: both directions, Spec.Yields (all items up to None) against Spec.Given (told from the items of the message, without state of the iterator); C94_built: signs of the builder, messages of at most 128 characters that do not panic. When no list is Given the iterator does not end (C51, C89)."
  },
  {
   "property": "C95",
   "status": "partial",
   "theorems": [
    "Ntcip.C95_pages_partial",
    "Ntcip.C95_later_page_lost",
    "Ntcip.C95_contained_partial"
   ],
   "note": "False in general: C95_later_page_lost (after a tag of text the sign can not show the rest of the message is dropped; C94 tells all such cases). Proved for messages whose only faults are in texts (unknown fonts or characters, text too big, backwards justification) and which have no text rectangles: C95_pages_partial. Widened to messages with text rectangles, where the first fault of every page is found when the whole page has been read (on the last page also a wrong layout tag): C95_contained_partial. Other faults do affect what follows (C94), so nothing is missing but those."
  },
  {
   "property": "C96",
   "status": "proved",
   "theorems": [
    "Ntcip.C96_narrower",
    "Ntcip.C96_shortened"
   ],
   "note": "C96_narrower: texts that are not wider, every sign and message of C93 (sizes within 16 bits); C96_shortened: characters left out, signs of the builder, messages of at most 128 characters."
  },
  {
   "property": "C97",
   "status": "proved",
   "theorems": [
    "Ntcip.C97_rows",
    "Ntcip.C97_rectangles"
   ],
   "note": "C97_rows: pixels in the rows of lines with another text, whatever the fonts and character cells; C97_rectangles: inside of text rectangles with other texts, on signs with fonts of the height of their character cells (or without character cells), as otherwise text sticks out of its rectangle (C43)."
  },
  {
   "property": "C98",
   "status": "proved",
   "theorems": [
    "Ntcip.C98_visible",
    "Ntcip.C98_room"
   ],
   "note": "C98_visible: texts do not overlap and all lit pixels are seen; C98_room: when there is room, in widths and heights of lines, on signs without character cells. Without room they overlap: C62_false, C63_false."
  },
  {
   "property": "C99",
   "status": "proved",
   "theorems": [
    "Ntcip.C99_alone",
    "Ntcip.C99_page"
   ],
   "note": "C99_page: for the builder and all state tags of earlier pages; C99_alone: also for other tags of the message with the same effect. A case shows that a [cb] tag before a [pb] tag changes graphics of one bit."
  },
  {
   "property": "C100",
   "status": "proved",
   "theorems": [
    "Ntcip.C100_sequence",
    "Ntcip.C100_reset"
   ],
   "note": "C100_reset: with the tags, on a built sign; C100_sequence: with any state tags that restore the state (with [cb] tags among them the second message must have no graphic, see C99)."
  },
  {
   "property": "C101",
   "status": "proved",
   "theorems": [
    "Ntcip.C101_inset"
   ],
   "note": "C101_inset. The message is shown on the larger sign whenever it is on the small one; the OFF pages are the same (the renderer gives them the size of the last text rectangle, see C39); with C77 the same holds at other places of the larger sign."
  },
  {
   "property": "C102",
   "status": "proved",
   "theorems": [
    "Ntcip.C102_defaults",
    "Ntcip.C102_own"
   ],
   "note": "C102_defaults: sign with other defaults; C102_own: its own defaults written out, on built signs. Default colors are C76."
  },
  {
   "property": "C103",
   "status": "proved",
   "theorems": [
    "Ntcip.C103_style",
    "Ntcip.C103_built"
   ],
   "note": "C103_style: any valid sign; C103_built: signs made by the builder, messages of at most 128 characters. The condition on [cb] is needed (case in Props/Style)."
  },
  {
   "property": "C104",
   "status": "partial",
   "theorems": [
    "Ntcip.C104_files",
    "Ntcip.C104_names",
    "Ntcip.C104_ending",
    "Ntcip.C104_false"
   ],
   "note": "C104_files, C104_names: any sign and message; C104_ending: signs of the builder, messages of at most 128 characters. The last sentence is false (C104_false): the sign of the example is not valid, the error of the builder is unwrapped and nothing is written. With a face large enough the message is shown on four images (case in Props/Example)."
  },
  {
   "property": "C105",
   "status": "proved",
   "theorems": [
    "Ntcip.C105_lookup",
    "Ntcip.C105_missing",
    "Ntcip.C105_insertions",
    "Ntcip.C105_file"
   ],
   "note": "C105_lookup, C105_missing: every table. C105_insertions: unused slots have the same name (as by default), which is none of the new names. C105_file: with C70 for the font of the file. Added because a wrong program (names compared by their first characters) was not noticed by C24."
  },
  {
   "property": "C106",
   "status": "proved",
   "theorems": [
    "Ntcip.C106_order",
    "Ntcip.C106_built"
   ],
   "note": "C106_order: any valid sign and messages whose calculations fit (SizesOk); C106_built: signs made by the builder, messages of at most 128 characters. The conditions on common pixels and color tags are needed (cases in Props/Order)."
  },
  {
   "property": "C107",
   "status": "proved",
   "theorems": [
    "Ntcip.C107_image",
    "Ntcip.C107_program"
   ],
   "note": "C107_image: any valid graphic of these types; C107_program: the file the program writes, pixel by pixel. For monochrome 8-bit graphics to_raster takes levels for classic colors (C36)."
  },
  {
   "property": "C108",
   "status": "proved",
   "theorems": [
    "Ntcip.C108_synonyms",
    "Ntcip.C108_shown",
    "Ntcip.C108_graphics"
   ],
   "note": "C108_synonyms: all results, with errors and panics; C108_shown: shown as the same pages, both ways; C108_graphics: default colors cannot be exchanged with their numbers on monochrome signs where a 1-bit graphic is drawn (see C38)."
  },
  {
   "property": "C109",
   "status": "proved",
   "theorems": [
    "Ntcip.C109_off_sign",
    "Ntcip.C109_checked",
    "Ntcip.C109_no_panic",
    "Ntcip.C109_built"
   ],
   "note": "C109_off_sign: any number of calls of next, also after errors; C109_checked: compared with a build with overflow checks; C109_no_panic, C109_built: no panic for the signs and messages of C44 without the condition on rectangles (signs narrower than 65534 pixels)."
  },
  {
   "property": "C110",
   "status": "proved",
   "theorems": [
    "Ntcip.C110_hidden",
    "Ntcip.C110_built",
    "Ntcip.C110_rectangle",
    "Ntcip.C110_whole"
   ],
   "note": "C110_hidden; C110_built on built signs; C110_rectangle and C110_whole: two kinds of hidden drawings."
  },
  {
   "property": "C111",
   "status": "proved",
   "theorems": [
    "Ntcip.C111_legible",
    "Ntcip.C111_built",
    "Ntcip.C111_fixed"
   ],
   "note": "C111_legible; C111_built on built signs; C111_fixed: texts of the same length in fonts of one width."
  },
  {
   "property": "C112",
   "status": "proved",
   "theorems": [
    "Ntcip.C112_results",
    "Ntcip.C112_shown",
    "Ntcip.C112_values",
    "Ntcip.C112_built",
    "Ntcip.C112_lines"
   ],
   "note": "C112_results (all results, also errors), C112_shown, C112_values (messages told by their values), C112_built, C112_lines."
  },
  {
   "property": "C113",
   "status": "proved",
   "theorems": [
    "Ntcip.C113_added"
   ],
   "note": "C113_added.  For text in the vertical middle it is false, as an example shows: an added line moves the ones before up."
  },
  {
   "property": "C114",
   "status": "proved",
   "theorems": [
    "Ntcip.C114_pictures",
    "Ntcip.C114_times",
    "Ntcip.C114_built"
   ],
   "note": "C114_pictures, C114_times, C114_built."
  },
  {
   "property": "C115",
   "status": "proved",
   "theorems": [
    "Ntcip.C115_exchange",
    "Ntcip.C115_built"
   ],
   "note": "C115_exchange, C115_built.  The OFF pages are not compared."
  },
  {
   "property": "C116",
   "status": "proved",
   "theorems": [
    "Ntcip.C116_again",
    "Ntcip.C116_built"
   ],
   "note": "C116_again, C116_built."
  },
  {
   "property": "C117",
   "status": "proved",
   "theorems": [
    "Ntcip.C117_cover",
    "Ntcip.C117_cut",
    "Ntcip.C117_built"
   ],
   "note": "C117_cover, C117_cut, C117_built."
  },
  {
   "property": "C118",
   "status": "proved",
   "theorems": [
    "Ntcip.C118_onward",
    "Ntcip.C118_typed",
    "Ntcip.C118_moved"
   ],
   "note": "C118_onward (values added), C118_typed (the last text made longer), C118_moved (centered text, text at the right and text of a lower font do move)."
  },
  {
   "property": "C119",
   "status": "proved",
   "theorems": [
    "Ntcip.C119_graphic_odd",
    "Ntcip.C119_graphic_few",
    "Ntcip.C119_graphic_two_iff",
    "Ntcip.C119_graphic_burst",
    "Ntcip.C119_font_odd",
    "Ntcip.C119_font_few",
    "Ntcip.C119_font_burst",
    "Ntcip.C119_unseen"
   ],
   "note": "C119_graphic_odd, C119_graphic_few, C119_graphic_two_iff, C119_graphic_burst, C119_font_odd, C119_font_few, C119_font_burst; C119_unseen: two graphics of 4096 bytes that differ in two pixels and have the same version ID."
  },
  {
   "property": "C120",
   "status": "proved",
   "theorems": [
    "Ntcip.C120_vertical",
    "Ntcip.C120_horizontal"
   ],
   "note": "C120_vertical, C120_horizontal.  Text in the middle of signs with character cells only if the heights of the fonts are multiples of the cell height; centered text only on signs without character cells."
  },
  {
   "property": "C121",
   "status": "proved",
   "theorems": [
    "Ntcip.C121_values",
    "Ntcip.C121_rows",
    "Ntcip.C121_rectangles"
   ],
   "note": "C121_values, C121_rows, C121_rectangles (the last when all fonts have the height of the character cells, or there are none)."
  },
  {
   "property": "C122",
   "status": "proved",
   "theorems": [
    "Ntcip.C122_repaint",
    "Ntcip.C122_tiles",
    "Ntcip.C122_graphic",
    "Ntcip.C122_pixels"
   ],
   "note": "C122_repaint, C122_tiles, C122_graphic, C122_pixels.  1-bit graphics are left out of C122_graphic: they have the colors in effect at their place, which a color rectangle has to tell as a number."
  },
  {
   "property": "C123",
   "status": "proved",
   "theorems": [
    "Ntcip.C123_glyphs",
    "Ntcip.C123_cut",
    "Ntcip.C123_pattern"
   ],
   "note": "C123_glyphs, C123_cut, C123_pattern.  The statement leaves out NUL characters in texts: several unused entries of a font can have the number 0."
  },
  {
   "property": "C124",
   "status": "proved",
   "theorems": [
    "Ntcip.C124_places",
    "Ntcip.C124_beside"
   ],
   "note": "C124_places, C124_beside.  For texts at the right, the side is told for texts whose number on the line is their own (a repeated [jl] tag begins numbers anew, see C46)."
  },
  {
   "property": "C125",
   "status": "proved",
   "theorems": [
    "Ntcip.C125_last",
    "Ntcip.C125_order",
    "Ntcip.C125_without",
    "Ntcip.C125_default",
    "Ntcip.C125_schemes"
   ],
   "note": "C125_last, C125_order, C125_without, C125_default, C125_schemes."
  },
  {
   "property": "C126",
   "status": "proved",
   "theorems": [
    "Ntcip.C126_line"
   ],
   "note": "C126_line."
  },
  {
   "property": "C127",
   "status": "proved",
   "theorems": [
    "Ntcip.C127_above",
    "Ntcip.C127_left",
    "Ntcip.C127_moved"
   ],
   "note": "C127_above, C127_left; C127_moved shows that text in the middle, in the center, or of a lower font does move."
  },
  {
   "property": "C128",
   "status": "proved",
   "theorems": [
    "Ntcip.C128_resized",
    "Ntcip.C128_moved"
   ],
   "note": "C128_resized; C128_moved shows that text moves with the edges it is placed at."
  },
  {
   "property": "C129",
   "status": "proved",
   "theorems": [
    "Ntcip.C129_larger",
    "Ntcip.C129_same",
    "Ntcip.C129_smaller"
   ],
   "note": "C129_larger, C129_same; C129_smaller shows that a smaller rectangle is refused, and that on a sign with character cells a rectangle higher up on the sign can panic."
  },
  {
   "property": "C130",
   "status": "proved",
   "theorems": [
    "Ntcip.C130_prefix",
    "Ntcip.C130_onward",
    "Ntcip.C130_parts"
   ],
   "note": "C130_prefix, C130_onward; C130_parts shows that parts that end with tags can not be normalized first, and that the rest can not be normalized on its own."
  },
  {
   "property": "C131",
   "status": "proved",
   "theorems": [
    "Ntcip.C131_tighter",
    "Ntcip.C131_left_out"
   ],
   "note": "C131_tighter; C131_left_out shows that a tag for the spacing can not be left out."
  },
  {
   "property": "C132",
   "status": "proved",
   "theorems": [
    "Ntcip.C132_drawings",
    "Ntcip.C132_left_out"
   ],
   "note": "C132_drawings, C132_left_out.  A drawing between two texts can be replaced, but is not left out by the theorem, since the two texts are then one."
  },
  {
   "property": "C133",
   "status": "proved",
   "theorems": [
    "Ntcip.C133_left_out",
    "Ntcip.C133_built"
   ],
   "note": "C133_left_out, C133_built.  On a character-matrix sign with fonts whose height is no multiple of the cell height, text at the middle can leave its rectangle at the top (C43)."
  },
  {
   "property": "C134",
   "status": "proved",
   "theorems": [
    "Ntcip.C134_smaller",
    "Ntcip.C134_spacings",
    "Ntcip.C134_cells"
   ],
   "note": "C134_smaller, C134_spacings; C134_cells shows that fonts lower than the cells of a character-matrix sign make rendering panic (for text at the middle, see C44)."
  },
  {
   "property": "C135",
   "status": "proved",
   "theorems": [
    "Ntcip.C135_retinted",
    "Ntcip.C135_accepted",
    "Ntcip.C135_graphics"
   ],
   "note": "C135_retinted, C135_accepted; C135_graphics: graphics of one bit for each pixel do change, and colors that the sign does not have are refused."
  },
  {
   "property": "C136",
   "status": "proved",
   "theorems": [
    "Ntcip.C136_dyed",
    "Ntcip.C136_accepted",
    "Ntcip.C136_replace",
    "Ntcip.C136_bits"
   ],
   "note": "C136_dyed, C136_accepted, C136_replace; C136_bits: without 24-bit colors, a graphic of one bit shows nothing in the default colors of a sign, so that a replaced color uncovers what is behind."
  },
  {
   "property": "C137",
   "status": "proved",
   "theorems": [
    "Ntcip.C137_seen",
    "Ntcip.C137_lines",
    "Ntcip.C137_trimmed",
    "Ntcip.C137_right"
   ],
   "note": "C137_seen, C137_lines, C137_trimmed, C137_right.  In the center, blanks move the text, and with blanks a message may be too wide (examples beside the theorems)."
  },
  {
   "property": "C138",
   "status": "proved",
   "theorems": [
    "Ntcip.C138_parts",
    "Ntcip.C138_left",
    "Ntcip.C138_right"
   ],
   "note": "C138_parts, C138_left, C138_right.  The widths are those of Spec/Layout (SpanWidth, LineWidth).  On signs with character cells, centered lines are put at the edge of a cell and so may move by a cell; these are left out."
  },
  {
   "property": "C139",
   "status": "proved",
   "theorems": [
    "Ntcip.C139_blocks",
    "Ntcip.C139_top",
    "Ntcip.C139_bottom",
    "Ntcip.C139_gap"
   ],
   "note": "C139_blocks, C139_top, C139_bottom, C139_gap.  The heights are those of Spec/Layout (linesHeight) and Spec/Stack (blockHeight).  Below the tag is a text; the tags are in order (Tidy), since texts out of order may be laid out over each other."
  },
  {
   "property": "C140",
   "status": "proved",
   "theorems": [
    "Ntcip.C140_same",
    "Ntcip.C140_panics",
    "Ntcip.C140_shown",
    "Ntcip.C140_bitmaps",
    "Ntcip.C140_all",
    "Ntcip.C140_graphics",
    "Ntcip.C140_colors"
   ],
   "note": "C140_same, C140_panics, C140_shown, C140_bitmaps, C140_all; C140_graphics and C140_colors show that graphics of one bit and colors by red, green and blue parts do make a difference."
  },
  {
   "property": "C141",
   "status": "proved",
   "theorems": [
    "Ntcip.C141_alike",
    "Ntcip.C141_colors",
    "Ntcip.C141_graphics",
    "Ntcip.C141_shown",
    "Ntcip.C141_order",
    "Ntcip.C141_upgrade",
    "Ntcip.C141_strict"
   ],
   "note": "C141_alike, C141_colors, C141_graphics, C141_shown, C141_order, C141_upgrade, C141_strict.  The condition on graphics is SharedGraphic: a graphic of one bit shows nothing in default colors without 24-bit colors (C38), so it may have pixels on one sign only; graphics of 24 bits show their colors also on signs that do not have them (C36)."
  }
 ]
}