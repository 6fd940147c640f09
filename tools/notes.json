{
 "C01": [
  "proved",
  "All strings; iteration is the Iterator::next relation, its end and the concatenation are proved."
 ],
 "C02": [
  "proved",
  "All strings; also uniqueness: any cut on tag boundaries is the one split makes."
 ],
 "C15": [
  "partial",
  "Exact rounded-down interpolation, bounds and end points are proved when foreground >= background per component; the full claim is false when background > foreground (C15_false, C15_inverted)."
 ],
 "C16": [
  "proved",
  "Acceptance by the color context for all schemes and colors (C16_rgb_iff, C16_set_*); a page with a color the scheme cannot show is never produced, wherever the tag is (C16_no_page), so a message rendered without error has only colors of the scheme (C16_message); the error is UnsupportedTagValue naming a tag with such a color when no text rectangle, graphic, color rectangle or unimplemented tag comes before it (C16_reported; those can fail first with their own error)."
 ],
 "C17": [
  "proved",
  "All byte values and all classic colors."
 ],
 "C18": [
  "partial",
  "Exact acceptance in checked arithmetic and without overflow; with overflow the claim is false (panic or wrong acceptance, C18_checked_panics, C18_wrapping_false)."
 ],
 "C19": [
  "proved",
  "All configurations."
 ],
 "C20": [
  "partial",
  "Exact acceptance is proved for all tables; that it never panics only without duplicate surrogate character numbers, since the claim is false with them (C20_false). C20_error_iff: exactly which error for which table; C20_panics_iff: exactly when it panics."
 ],
 "C21": [
  "proved",
  "All tables and sizes. C21_error_iff: exactly which error for which table."
 ],
 "C22": [
  "proved",
  "All builders."
 ],
 "C23": [
  "proved",
  "All built signs."
 ],
 "C24": [
  "proved",
  "Any sequence of insertions."
 ],
 "C26": [
  "partial",
  "Maximality and termination are proved when the font and rectangle heights are positive; with default font 0 of height 0 the loop does not end (C26_false). C26_endless_iff: exactly when it does not end."
 ],
 "C27": [
  "partial",
  "Exact sum and first undefined character are proved whenever the sum fits u16; otherwise it overflows (C27_false). NUL is found in unused slots (C27_nul_defined). C27_panics_iff: exactly when it panics."
 ],
 "C28": [
  "proved",
  "Any character, page and position inside the page."
 ],
 "C29": [
  "partial",
  "Proved for fonts whose unused slots have the same width; false with ordinary unused slots of width 0 (C29_false). C29_iff gives the exact condition, C29_unused what unused slots do to it."
 ],
 "C30": [
  "proved",
  "All fonts and graphics; little-endian hosts."
 ],
 "C31": [
  "proved",
  "Any 16-bit burst in the bitmap data."
 ],
 "C32": [
  "proved",
  "Injectivity of the hashed bytes on valid content."
 ],
 "C33": [
  "proved",
  "All lengths below 2^64 and u8/u16 values."
 ],
 "C34": [
  "partial",
  "Round trip proved for fonts with at least one character; false for fonts without (C34_false). The text layer of the tfon crate is not modelled. C34_empty and C34_round_trip_iff give the exact condition."
 ],
 "C35": [
  "partial",
  "No panic proved when the input has at most C glyphs; otherwise it panics (C35_false). The text layer of the tfon crate is not modelled. C35_panic_iff and C35_ok_iff tell exactly which property sequences panic and which are accepted."
 ],
 "C36": [
  "partial",
  "Dimensions, bounds and transparency proved for every valid graphic; decoding for 1-bit, classic and 24-bit graphics. False for monochrome 8-bit graphics, whose levels are shown as classic color numbers (C36_false). C36_exact tells the color of each pixel for every valid graphic, C36_level_iff for which levels of monochrome 8-bit graphics it is the right one."
 ],
 "C37": [
  "proved",
  "All valid graphics, pages, positions and color contexts."
 ],
 "C38": [
  "partial",
  "Proved on 24-bit signs; on all other signs a 1-bit graphic with default colors is invisible (C38_invisible, C38_false)."
 ],
 "C03": [
  "partial",
  "Exact characterisation: normalize/text_spans/join_text panic iff an item is an [fl..]/[mv..] tag with a non-ASCII character where the code slices one byte; is_blank never panics without such an item. The full claim is false (C03_false: \"[fl\u00e9]\"); all-ASCII strings never panic (C03_ascii)."
 ],
 "C04": [
  "proved",
  "Every item of every string; ranges stated in Spec/Values.lean (InRange)."
 ],
 "C05": [
  "proved",
  "All plain tag bodies without free text; acceptance and value agree for any two re-casings."
 ],
 "C06": [
  "partial",
  "Every value of every item round-trips, except [hc] from 10 up, which is written in decimal and read in hexadecimal (C06_hex_partial is exact; C06_false)."
 ],
 "C07": [
  "partial",
  "All strings without an [hc] of 10 or more; false otherwise (C07_false). C07_iff gives the exact condition: normalizing again changes nothing exactly when the message has no [hc] of 10 or more."
 ],
 "C08": [
  "partial",
  "All strings without an [hc] of 10000 or more; false otherwise (C08_false). C08_iff gives the exact condition: all items of the normalized text are valid exactly when there is no [hc] of 10000 or more."
 ],
 "C09": [
  "proved",
  "All strings on which normalize does not panic (C03). With a non-empty separator the claim would be false (C09_separator_false), hence the empty separator in the statement."
 ],
 "C10": [
  "proved",
  "All strings: no redundant tag remains; every character and tag keeps its color, font and justification. C10_effect leaves hexadecimal characters out (C06); C10_effect_hex_partial includes the ones below 10."
 ],
 "C11": [
  "partial",
  "Empty iff nothing visible; last item visible; all visible tags kept in order except [hc] from 10 up, which are changed or lost (C11_false). Text: C09."
 ],
 "C12": [
  "proved",
  "All strings."
 ],
 "C13": [
  "proved",
  "All texts over U+0001..U+00FF."
 ],
 "C14": [
  "proved",
  "All strings on which text_spans does not panic; the only side condition is that the string before the tag does not end with an unfinished \"[\"."
 ],
 "C61": [
  "partial",
  "A span is kept whole or dropped whole; the documented removal of single characters is false (C61_false)."
 ],
 "C39": [
  "partial",
  "ON pages have the size of the sign (C39_on_page_size_partial, all messages), and so have all pages of a message without [tr] (C39_no_tr_partial). False for OFF pages after [tr]: they get the size of the last text rectangle (C39_off_page_false). C39_exact gives the sizes of all pages, ON and OFF, of every message without errors."
 ],
 "C40": [
  "proved",
  "Kind, duration and, for OFF pages, color of all pages of a message without errors; the expected sequence is computed by Spec.schedule from the parsed values."
 ],
 "C41": [
  "proved",
  "Count of ON pages (C41_page_count) and termination of runs without errors and panics (C41_ends)."
 ],
 "C42": [
  "proved",
  "Per page (C42_rejected) and for whole messages (C42_message).  [f0] has no tag and is not caught by the check; it panics later (see C44)."
 ],
 "C50": [
  "partial",
  "Bound for runs without errors (C50_ends_partial). False after errors: the same error is repeated forever (C50_error_forever, C50_false). C50_dichotomy holds for all messages: the items end within 2(n+1), n being the number of items of the message, or after at most 2(n+1)+1 all are the same error. C50_text_ends_partial names messages which always end; C50_after_error shows the three courses after an error. C50_ends_iff: without panics, the iterator ends exactly when no page reached has an early fault (item, background color, or color, color rectangle or graphic before the first text rectangle); C50_forever: such an error is repeated; C50_shown_ends_partial: messages of valid, supported items with colors and graphics the sign can show always end, whatever the errors of their texts."
 ],
 "C51": [
  "proved",
  "C51_rejected: 50 or more; C51_accepted and C51_message: at most 49."
 ],
 "C52": [
  "proved",
  "Every item of every run, also after errors."
 ],
 "C53": [
  "proved",
  "C53_carry: attributes, background and times are folds over everything rendered; C53_reset: the rest has no influence on the next page."
 ],
 "C43": [
  "partial",
  "Text of every drawn page is inside of its text rectangle for all messages on a sign with valid fonts, unless a middle-justified page has character cells higher than the fonts; C43_false gives the two counterexamples (cell truncation with middle justification, default font number 0). C43_boxes, C43_inside_iff, C43_text_inside: without condition on fonts, a text is inside of its rectangle exactly unless it is in the vertical middle and sticks out at the top (Spec.SticksOut)."
 ],
 "C45": [
  "partial",
  "C45_drawn: text that is drawn fits (every sign, every list of spans). C45_fits_partial, C45_too_big_partial: both directions for spans whose fonts and characters are defined and within u16 (Spec.Sound), lines dense as produced by [nl], middle-justified text on character cells only under the cell condition. The full claim is false (C45_false): after a [jp] change followed by [nl] a line of two texts is counted twice, and sums of 65536 or more panic. C45_exact: the true law for texts of one rectangle with defined fonts and characters and no panic, with or without lines counted twice: drawn iff every line fits the width and the total height as counted (Spec.totalHeight) fits the height, otherwise TextTooBig."
 ],
 "C46": [
  "proved",
  "All spans, fonts and rectangles on signs without character cells."
 ],
 "C47": [
  "partial",
  "Exact for adjacent spans and for page justification; within a line when line numbers do not decrease. C47_false: a message that goes back to line 0 by changing the page justification twice is accepted."
 ],
 "C48": [
  "partial",
  "Exact for every rectangle without u16 overflow; C48_overflow: all others panic. Sign of 0 by 0 pixels excluded."
 ],
 "C49": [
  "partial",
  "Exact pixels for every rectangle without u16 overflow, which is a panic (C49_false)."
 ],
 "C54": [
  "proved",
  "For every sign, pattern and message, valid or not, for which neither call panics."
 ],
 "C55": [
  "partial",
  "Exact description of widths (rectangles, numbers, width, font number) for patterns in which no item panics, on signs that support [np] (without: C60). C55_false: a pattern with 256 fillable pages overflows the u8 rectangle number. C55_ok_iff: widths are given exactly when no item panics, there are at most 255 fillable areas and their rectangles have lines."
 ],
 "C57": [
  "partial",
  "All tags and texts but font tags are kept in order (all valid patterns); font tags too when they are at the end of fillable areas; canonical form when nothing is fillable and there are no font tags. C57_false: font tags are dropped, merged or moved otherwise. Signs that support [np]. C57_exact: the true law for every valid pattern: what fill gives is exactly the text described by Spec.Filled (areas, lines, font tags put off), and nothing else is."
 ],
 "C58": [
  "partial",
  "First half for all signs and patterns; second half for signs that support [np]. C58_false: on other signs every pattern gives an empty string."
 ],
 "C59": [
  "proved",
  "Exact output of fill for valid patterns on signs that support [np] (on other signs fill writes nothing, C60); lines beyond the capacity have no influence."
 ],
 "C60": [
  "partial",
  "False: on every sign without [np], fill returns nothing for every pattern (C60_fill_false) and the blank page is not fillable (C60_blank_false). C60_widths_partial: widths enumerates all areas but the last."
 ],
 "C56": [
  "partial",
  "For valid patterns on signs that support [np], lines that consist of text, [cf], [jl] and [sc] tags, when dropping the font tags does not bring texts together and hexadecimal characters are single digits. C56_false, C56_hc_false: witnesses without these hypotheses."
 ],
 "C44": [
  "partial",
  "C44_no_panic_partial: any number of calls of Pages::next give pages or errors for every sign with valid tables, dimensions below 65535, default font from 1 on, supported default justifications, and every message without a tag on which the parser panics, without rectangles beyond 16 bits, without supported-but-unimplemented tags, with sizes in 16 bits (all messages up to 128 code points: sizesOk_short). C44_built_partial: the same for signs of the builder and ASCII messages. The full claim is false: C44_false has a built sign and a panic for each of these conditions. C93 has the exact condition, in both directions, without the conditions on tags."
 ],
 "C25": [
  "partial",
  "f32 is modelled as rationals with IEEE round-to-nearest-even at every operation (Model/F32.lean). C25_monotone is complete: all signs, all indices. C25_position_partial: every pixel of a sign is within w/2^18 of its exact center (Spec/Position.lean); C25_inside_partial, C25_strict_partial, C25_centred_partial: strictly inside, distinct, symmetric. Conditions: pixels plus gaps fit in 16 bits, pitch not zero; C25_false has a built sign and a panic or a pixel beyond the face without them."
 ],
 "C62": [
  "partial",
  "Proved for text rectangles with tidy values (justification from left to right on a line), for texts with one justification. The full claim is false: C62_false (redundant [jl] tag, left against right text)."
 ],
 "C63": [
  "partial",
  "Proved for text rectangles with tidy values, for lines with one page justification. The full claim is false: C63_false ([jp] followed by [nl], top against bottom text)."
 ],
 "C64": [
  "proved",
  "For every message: the list of texts with attributes and lines (C64_pieces), each drawn once (C64_drawn_once), at the place of its line and number (C64_places, ExactX and ExactY), exactly the pixels of its characters change to its color. For tidy values these are the places of C62 and C63 (C64_tidy); in others texts may overlap (C62_false, C63_false)."
 ],
 "C65": [
  "proved",
  "For every ON page that next gives without earlier errors: all fonts, characters and graphics it needs exist, with the version IDs the tags give."
 ],
 "C66": [
  "proved",
  "For every ON page that next gives without earlier errors: background, color rectangles, graphics, text rectangles in order, every text drawn once, at the place given by its number and line (ExactX, ExactY)."
 ],
 "C67": [
  "proved",
  "Both directions, for one page at any time before an error (C67_page_iff) and for whole messages (C67_message_iff). Pages out of order and pages of more than 255 values are outside of the claim: for the panics there see C44, for the order of justification C47."
 ],
 "C68": [
  "partial",
  "For rectangles whose right and bottom edges fit in 16 bits, in either build profile. Missing: others, where the full claim is false (C68_false: a panic with overflow checks, an empty intersection without). contains of a rectangle without pixels is compared by its edges. C68_intersection_panics_iff, C68_contains_panics_iff: exactly when they panic."
 ],
 "C69": [
  "proved",
  "The iterator is modelled again with its byte offset (Model/MultiStr.lean) and shown to agree with the item based functions the rest of the model uses."
 ],
 "C70": [
  "proved",
  "The text layer of the tfon crate is not modelled (see C34). Bitmaps of height 0 at the begin of a file are not noticed by the height check; C70_heights excludes them, C70_parse does not. Files with more characters than slots are the subject of C35. C70_name: the name is the longest beginning of the last name given (without NUL) that fits 64 bytes."
 ],
 "C71": [
  "partial",
  "Two partial theorems, both for messages rendered without errors, ending in something visible, without [hc] of two or more digits. C71_tidy_partial: messages whose values are in order, also with removed tags between texts, if no character has width 0 and (on signs with character cells) no text is centered. C71_pages_partial: also values not in order, if no [jl] is repeated after text and no removed tag stands between two texts. In general the claim is false (C71_false): trailing [np] and [pb] are dropped, [hc41] becomes [hc65], a repeated [jl2] makes texts overlap before but not after normalizing, and joined centered texts are aligned to cells together. C71_joined_false: with texts that overlap because a tag repeats the justification in effect, joining two of them moves one.  Missing: joined texts in other messages that are not in order."
 ],
 "C72": [
  "partial",
  "Proved for signs that are valid with all font heights multiples of the cell height, and valid patterns in order (as for C67) without [sc] and [hc] tags, with font tags only at the end of fillable areas and right version IDs, and at most 255 values after filling. The claim is false (C72_false) with [sc] (widths ignore it), [hc] (no text for fill), font tags before text (dropped by fill) and wrong version IDs (not noticed before there is text)."
 ],
 "C73": [
  "partial",
  "Headers, number of bytes and every pixel read back, for every raster whose size fits 32 bits; larger ones are a panic (C73_overflow). The file size told by the header is right exactly if the width is a multiple of 4 (C73_size_iff, C73_false)."
 ],
 "C74": [
  "proved",
  "Numbers must be unique and the default font not 0, as validation of tables requires; C74_store_font is about tables changed through font_mut. C74_settings shows that the limits of a sign (pages, length of messages) are not enforced."
 ],
 "C75": [
  "proved",
  "The larger sign must have whole character cells (C75_cells: validation does not require it, and [tr1,1,0,0] is then refused) and less than 65535 pixels per side (C75_limit)."
 ],
 "C76": [
  "proved",
  "C76_scheme is about all messages on signs of one color scheme; 24-bit graphics only on 24-bit signs (elsewhere they keep their colors, C52). C76_text is about all schemes; with color tags signs of other schemes may give errors (C76_tags)."
 ],
 "C77": [
  "partial",
  "C77_moved_partial is for signs whose font heights are whole character cells (always so without character cells). Otherwise centered text may be above its rectangle, which panics at the top of the sign (C77_false). Rectangles must have a size (C77_sizes)."
 ],
 "C78": [
  "proved",
  "Pages, errors and panics of a message, and widths, fill and lines of a pattern, are functions of the values of its items. C78_case is the consequence for upper and lower case."
 ],
 "C79": [
  "proved",
  "C79_earlier also holds for messages with errors; C79_appended needs the attributes after the message to be the defaults, C79_joined is for messages without attribute tags."
 ],
 "C80": [
  "proved",
  "C80_blank: pages are those of the schedule of C40 (kind, duration), all pixels have the background color of the page; ON pages have the size of the sign.  Hypothesis: white space characters of the fonts have no lit pixels (otherwise the claim is false)."
 ],
 "C81": [
  "proved",
  "C81_accepted_iff: when accepted.  C81_pictures and C81_one_picture: the pages are the unique picture of the look.  C81_same_look, C81_rewritten: messages of the same look show the same pages.  C81_zero_width shows that the claim is false with characters of width 0, as the code adds no character spacing in a text while its width is 0."
 ],
 "C82": [
  "partial",
  "C82_same_partial, C82_iff_partial, C82_no_panic_partial, C82_widths_partial: equal results whenever a build with overflow checks does not panic, so all claims on pages hold for release builds, too.  C82_panics: no additional panics.  C82_text_rectangles, C82_color_rectangles: rectangles whose edges overflow are rejected.  The rest of the claim is false (C82_false): a text more than 65535 pixels wide is accepted and drawn at a wrong place, as its width wraps around.  Rectangles off the sign, where the overflow is caught, are covered exactly by C109.  Missing: what else happens after other overflows (sums of widths or heights over 65535, more than 255 lines or texts)."
 ],
 "C83": [
  "partial",
  "C83_error_partial: each error (also after other errors) is that of a fault of the page; C83_first_partial: the same for the first error, with the attributes that the values before the page set; C83_tidy: without exception if the page is in order.  C83_kinds: the errors that are given at all.  The full claim is false (C83_false): TextTooBig is given for text that fits, if the lines of a page justification are not numbered without gaps, as offset_vert counts lines twice."
 ],
 "C84": [
  "proved",
  "C84_item: acceptance and value of every string, exactly.  C84_unique and C84_meaning: the grammar of items and messages is not ambiguous.  C84_message: the values of a message.  Of note: versions may be `+` and 3 digits, `[f13,]` and `[pt3o]` have empty parameters, `[nl]` takes a single digit without sign."
 ],
 "C85": [
  "proved",
  "C85_cells.  C85_unchecked: the condition on fonts is needed, the sign builder accepts other fonts, and then text is not at cells."
 ],
 "C86": [
  "proved",
  "C86_asked, C86_plain, C86_scheme.  C86_foreign: a 24-bit graphic shows its colors on monochrome signs, and the sign is built without complaint."
 ],
 "C87": [
  "proved",
  "C87_error_iff: exactly which error for which configuration (with overflow checks); C87_panics_iff: exactly when building panics instead (dimensions beyond 16 bits, surrogates used twice); C87_never: errors never given.  See C20_error_iff and C21_error_iff for the tables."
 ],
 "C88": [
  "partial",
  "C88_shown_iff_partial, under the conditions of C72 on sign and pattern (no [sc] and [hc] tags, font tags at the end of fillable areas, right version IDs, in order; C72_false refutes the claim for others), and lines without brackets with characters 1 to 255."
 ],
 "C89": [
  "partial",
  "The claim is false for every valid sign that supports [np] tags (C89_false): C89_ignored gives messages of any number of pages and any length that are rendered without errors; the limits are stored but not used (see also C74_settings), and TooManyPages is never given (C83_kinds). C89_single_partial: the limit on pages is kept by signs without [np] tags, as there is one page only."
 ],
 "C90": [
  "proved",
  "C90_page, C90_later: the error of every page, exactly, for the first error and for later ones; C90_item: single items; C90_lines: lines numbered without gaps are counted by their numbers; C90_unique: there is at most one first fault."
 ],
 "C91": [
  "proved",
  "C91_page: the raster of a page is the only one that Composed allows; C91_same: pages with the same values, attributes and background are the same; C91_result: together with C90 what next gives at any ON page; C91_place: places of texts are unique."
 ],
 "C92": [
  "proved",
  "C92_message (pages iff no page has a fault, and which), C92_first_error (which error), C92_unique (the description allows one list of pages), C92_no_panic / C92_built (hypotheses met by the messages of C44, and by signs of the builder). OFF pages have the size of the last text rectangle (see findings)."
 ],
 "C93": [
  "proved",
  "C93_ends (first error or panic of a message, both directions), C93_page (every page reached, also after errors), C93_never (no number of calls panics, exactly when no page reached has a panic as first stop), C93_message (C92 without its hypothesis that nothing panics), C93_unique, C93_built (signs of the builder). Outside of the claim: messages with more than 255 lines or texts or widths beyond 16 bits, default font 0 and unsupported default justifications (each panics, see C44_false)."
 ],
 "C94": [
  "proved",
  "C94_given: both directions, Spec.Yields (all items up to None) against Spec.Given (told from the items of the message, without state of the iterator); C94_built: signs of the builder, messages of at most 128 characters that do not panic. When no list is Given the iterator does not end (C51, C89)."
 ],
 "C95": [
  "partial",
  "False in general: C95_later_page_lost (after a tag of text the sign can not show the rest of the message is dropped; C94 tells all such cases). Proved for messages whose only faults are in texts (unknown fonts or characters, text too big, backwards justification) and which have no text rectangles: C95_pages_partial. Widened to messages with text rectangles, where the first fault of every page is found when the whole page has been read (on the last page also a wrong layout tag): C95_contained_partial. Other faults do affect what follows (C94), so nothing is missing but those."
 ],
 "C96": [
  "proved",
  "C96_narrower: texts that are not wider, every sign and message of C93 (sizes within 16 bits); C96_shortened: characters left out, signs of the builder, messages of at most 128 characters."
 ],
 "C97": [
  "proved",
  "C97_rows: pixels in the rows of lines with another text, whatever the fonts and character cells; C97_rectangles: inside of text rectangles with other texts, on signs with fonts of the height of their character cells (or without character cells), as otherwise text sticks out of its rectangle (C43)."
 ],
 "C98": [
  "proved",
  "C98_visible: texts do not overlap and all lit pixels are seen; C98_room: when there is room, in widths and heights of lines, on signs without character cells. Without room they overlap: C62_false, C63_false."
 ],
 "C99": [
  "proved",
  "C99_page: for the builder and all state tags of earlier pages; C99_alone: also for other tags of the message with the same effect. A case shows that a [cb] tag before a [pb] tag changes graphics of one bit."
 ],
 "C100": [
  "proved",
  "C100_reset: with the tags, on a built sign; C100_sequence: with any state tags that restore the state (with [cb] tags among them the second message must have no graphic, see C99)."
 ],
 "C101": [
  "proved",
  "C101_inset. The message is shown on the larger sign whenever it is on the small one; the OFF pages are the same (the renderer gives them the size of the last text rectangle, see C39); with C77 the same holds at other places of the larger sign."
 ],
 "C102": [
  "proved",
  "C102_defaults: sign with other defaults; C102_own: its own defaults written out, on built signs. Default colors are C76."
 ],
 "C103": [
  "proved",
  "C103_style: any valid sign; C103_built: signs made by the builder, messages of at most 128 characters. The condition on [cb] is needed (case in Props/Style)."
 ],
 "C104": [
  "partial",
  "C104_files, C104_names: any sign and message; C104_ending: signs of the builder, messages of at most 128 characters. The last sentence is false (C104_false): the sign of the example is not valid, the error of the builder is unwrapped and nothing is written. With a face large enough the message is shown on four images (case in Props/Example)."
 ],
 "C105": [
  "proved",
  "C105_lookup, C105_missing: every table. C105_insertions: unused slots have the same name (as by default), which is none of the new names. C105_file: with C70 for the font of the file. Added because a wrong program (names compared by their first characters) was not noticed by C24."
 ],
 "C106": [
  "proved",
  "C106_order: any valid sign and messages whose calculations fit (SizesOk); C106_built: signs made by the builder, messages of at most 128 characters. The conditions on common pixels and color tags are needed (cases in Props/Order)."
 ],
 "C107": [
  "proved",
  "C107_image: any valid graphic of these types; C107_program: the file the program writes, pixel by pixel. For monochrome 8-bit graphics to_raster takes levels for classic colors (C36)."
 ],
 "C108": [
  "proved",
  "C108_synonyms: all results, with errors and panics; C108_shown: shown as the same pages, both ways; C108_graphics: default colors cannot be exchanged with their numbers on monochrome signs where a 1-bit graphic is drawn (see C38)."
 ],
 "C109": [
  "proved",
  "C109_off_sign: any number of calls of next, also after errors; C109_checked: compared with a build with overflow checks; C109_no_panic, C109_built: no panic for the signs and messages of C44 without the condition on rectangles (signs narrower than 65534 pixels)."
 ],
 "C110": [
  "proved",
  "C110_hidden; C110_built on built signs; C110_rectangle and C110_whole: two kinds of hidden drawings."
 ],
 "C111": [
  "proved",
  "C111_legible; C111_built on built signs; C111_fixed: texts of the same length in fonts of one width."
 ],
 "C112": [
  "proved",
  "C112_results (all results, also errors), C112_shown, C112_values (messages told by their values), C112_built, C112_lines."
 ],
 "C113": [
  "proved",
  "C113_added.  For text in the vertical middle it is false, as an example shows: an added line moves the ones before up."
 ],
 "C114": [
  "proved",
  "C114_pictures, C114_times, C114_built."
 ],
 "C115": [
  "proved",
  "C115_exchange, C115_built.  The OFF pages are not compared."
 ],
 "C116": [
  "proved",
  "C116_again, C116_built."
 ],
 "C117": [
  "proved",
  "C117_cover, C117_cut, C117_built."
 ],
 "C118": [
  "proved",
  "C118_onward (values added), C118_typed (the last text made longer), C118_moved (centered text, text at the right and text of a lower font do move)."
 ],
 "C119": [
  "proved",
  "C119_graphic_odd, C119_graphic_few, C119_graphic_two_iff, C119_graphic_burst, C119_font_odd, C119_font_few, C119_font_burst; C119_unseen: two graphics of 4096 bytes that differ in two pixels and have the same version ID."
 ],
 "C120": [
  "proved",
  "C120_vertical, C120_horizontal.  Text in the middle of signs with character cells only if the heights of the fonts are multiples of the cell height; centered text only on signs without character cells."
 ],
 "C121": [
  "proved",
  "C121_values, C121_rows, C121_rectangles (the last when all fonts have the height of the character cells, or there are none)."
 ],
 "C122": [
  "proved",
  "C122_repaint, C122_tiles, C122_graphic, C122_pixels.  1-bit graphics are left out of C122_graphic: they have the colors in effect at their place, which a color rectangle has to tell as a number."
 ],
 "C123": [
  "proved",
  "C123_glyphs, C123_cut, C123_pattern.  The statement leaves out NUL characters in texts: several unused entries of a font can have the number 0."
 ],
 "C124": [
  "proved",
  "C124_places, C124_beside.  For texts at the right, the side is told for texts whose number on the line is their own (a repeated [jl] tag begins numbers anew, see C46)."
 ],
 "C125": [
  "proved",
  "C125_last, C125_order, C125_without, C125_default, C125_schemes."
 ],
 "C126": [
  "proved",
  "C126_line."
 ],
 "C127": [
  "proved",
  "C127_above, C127_left; C127_moved shows that text in the middle, in the center, or of a lower font does move."
 ],
 "C128": [
  "proved",
  "C128_resized; C128_moved shows that text moves with the edges it is placed at."
 ],
 "C129": [
  "proved",
  "C129_larger, C129_same; C129_smaller shows that a smaller rectangle is refused, and that on a sign with character cells a rectangle higher up on the sign can panic."
 ],
 "C130": [
  "proved",
  "C130_prefix, C130_onward; C130_parts shows that parts that end with tags can not be normalized first, and that the rest can not be normalized on its own."
 ],
 "C131": [
  "proved",
  "C131_tighter; C131_left_out shows that a tag for the spacing can not be left out."
 ],
 "C132": [
  "proved",
  "C132_drawings, C132_left_out.  A drawing between two texts can be replaced, but is not left out by the theorem, since the two texts are then one."
 ],
 "C133": [
  "proved",
  "C133_left_out, C133_built.  On a character-matrix sign with fonts whose height is no multiple of the cell height, text at the middle can leave its rectangle at the top (C43)."
 ],
 "C134": [
  "proved",
  "C134_smaller, C134_spacings; C134_cells shows that fonts lower than the cells of a character-matrix sign make rendering panic (for text at the middle, see C44)."
 ],
 "C135": [
  "proved",
  "C135_retinted, C135_accepted; C135_graphics: graphics of one bit for each pixel do change, and colors that the sign does not have are refused."
 ],
 "C136": [
  "proved",
  "C136_dyed, C136_accepted, C136_replace; C136_bits: without 24-bit colors, a graphic of one bit shows nothing in the default colors of a sign, so that a replaced color uncovers what is behind."
 ],
 "C137": [
  "proved",
  "C137_seen, C137_lines, C137_trimmed, C137_right.  In the center, blanks move the text, and with blanks a message may be too wide (examples beside the theorems)."
 ],
 "C138": [
  "proved",
  "C138_parts, C138_left, C138_right.  The widths are those of Spec/Layout (SpanWidth, LineWidth).  On signs with character cells, centered lines are put at the edge of a cell and so may move by a cell; these are left out."
 ],
 "C139": [
  "proved",
  "C139_blocks, C139_top, C139_bottom, C139_gap.  The heights are those of Spec/Layout (linesHeight) and Spec/Stack (blockHeight).  Below the tag is a text; the tags are in order (Tidy), since texts out of order may be laid out over each other."
 ],
 "C140": [
  "proved",
  "C140_same, C140_panics, C140_shown, C140_bitmaps, C140_all; C140_graphics and C140_colors show that graphics of one bit and colors by red, green and blue parts do make a difference."
 ],
 "C141": [
  "proved",
  "C141_alike, C141_colors, C141_graphics, C141_shown, C141_order, C141_upgrade, C141_strict.  The condition on graphics is SharedGraphic: a graphic of one bit shows nothing in default colors without 24-bit colors (C38), so it may have pixels on one sign only; graphics of 24 bits show their colors also on signs that do not have them (C36)."
 ]
}