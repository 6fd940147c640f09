{"id": "C01", "title": "split is lossless", "statement": "Concatenating, in order, every item produced by multi::split(ms) gives back exactly ms, every item is non-empty, and the iteration ends.", "quantifier": "every string ms", "why_tests_cant": "The input strings form an infinite set; tests sample a few dozen literals.", "anchors": ["src/dms/multi.rs:split", "src/dms/multi.rs:MultiStr::next_slice"]}
{"id": "C02", "title": "split cuts on tag boundaries", "statement": "Every item of multi::split(ms) is either the escape `[[` or `]]`, a complete bracketed tag with no bracket inside, a maximal text span without brackets, a stray `]`, or an unterminated `[...` fragment; two text spans are never adjacent.", "quantifier": "every string ms", "why_tests_cant": "The input strings form an infinite set; tests sample a few dozen literals.", "anchors": ["src/dms/multi.rs:split", "src/dms/multi.rs:MultiStr::next_slice"]}
{"id": "C03", "title": "MULTI analysis never panics", "statement": "normalize, is_blank, text_spans, join_text return normally for every string (no byte-index panic).", "quantifier": "every string ms (any Unicode)", "why_tests_cant": "A panic needs a particular non-ASCII byte layout inside a particular tag; tests only use ASCII inside tags.", "anchors": ["src/dms/multi.rs:parse_flash_time", "src/dms/multi.rs:parse_moving_text", "src/dms/multi.rs:parse_moving_text_mode", "src/dms/multi.rs:normalize", "src/dms/multi.rs:is_blank"]}
{"id": "C04", "title": "accepted tags are in range", "statement": "A tag is only accepted when its parameters are within the ranges the documentation/1203 allows: [nl] digit 0-9, [sc] 0-99, [fl] times 0-99, font and graphic numbers 1-255, rectangle and graphic origins at least 1, field ids below 14, moving-text linear delay 0-9.", "quantifier": "every tag string", "why_tests_cant": "All parameter strings of all lengths, signs and leading zeros.", "anchors": ["src/dms/multi.rs:parse_tag", "src/dms/multi.rs:parse_font", "src/dms/multi.rs:parse_graphic", "src/dms/multi.rs:parse_rectangle"]}
{"id": "C05", "title": "tag names and numbers are case-insensitive", "statement": "Changing the ASCII case of any letters of a tag that carries no free text ([ms], [/ms], [mv] excluded) changes neither whether it is accepted nor its value.", "quantifier": "every tag string and every re-casing of it", "why_tests_cant": "All re-casings of all tags.", "anchors": ["src/dms/multi.rs:parse_tag"]}
{"id": "C06", "title": "canonical tag text denotes the same value", "statement": "Writing any accepted value in its canonical text form and parsing that text gives back the same value, so rewriting a message (normalize, fill) does not change the meaning of its tags.", "quantifier": "every accepted tag value", "why_tests_cant": "Number formatting and parsing must agree for all parameter combinations.", "anchors": ["src/dms/multi.rs:Display for Value", "src/dms/multi.rs:parse_tag"]}
{"id": "C07", "title": "normalize is idempotent", "statement": "normalize(normalize(ms)) = normalize(ms).", "quantifier": "every string ms", "why_tests_cant": "The input strings form an infinite set; tests sample a few dozen literals.", "anchors": ["src/dms/multi.rs:normalize"]}
{"id": "C08", "title": "normalize output is well formed", "statement": "Every item of the output of normalize is a valid tag or a valid text span: nothing malformed, unsupported or with an invalid character remains.", "quantifier": "every string ms", "why_tests_cant": "The input strings form an infinite set; tests sample a few dozen literals.", "anchors": ["src/dms/multi.rs:normalize"]}
{"id": "C09", "title": "normalize keeps the visible text", "statement": "The text of normalize(ms), joined with the empty separator, is the text of ms with only trailing white space removed; no other character is lost, added or reordered.", "quantifier": "every string ms", "why_tests_cant": "The input strings form an infinite set; tests sample a few dozen literals.", "anchors": ["src/dms/multi.rs:normalize", "src/dms/multi.rs:join_text"]}
{"id": "C10", "title": "normalize removes redundant state tags", "statement": "In the output of normalize no [cf], [fo], [jl] or [jp] tag repeats the value already in effect (starting from default), and removing them never removes a tag that changes the value in effect.", "quantifier": "every string ms", "why_tests_cant": "Quantifies over all interleavings of four kinds of state tags.", "anchors": ["src/dms/multi.rs:normalize"]}
{"id": "C11", "title": "normalize only drops trailing blanks", "statement": "normalize(ms) is empty exactly when every valid item of ms is blank; the output never ends with a blank item, and every non-blank valid item of ms is kept, in order.", "quantifier": "every string ms", "why_tests_cant": "The input strings form an infinite set; tests sample a few dozen literals.", "anchors": ["src/dms/multi.rs:normalize", "src/dms/multi.rs:Value::is_blank"]}
{"id": "C12", "title": "is_blank means nothing visible", "statement": "is_blank(ms) is true exactly when every item is valid and none is a non-whitespace text span, graphic, color rectangle, field, hex character, manufacturer tag or moving text; and then normalize(ms) is empty.", "quantifier": "every string ms", "why_tests_cant": "The input strings form an infinite set; tests sample a few dozen literals.", "anchors": ["src/dms/multi.rs:is_blank"]}
{"id": "C13", "title": "bracket escaping round-trips", "statement": "For any text of valid code points, escaping `[` as `[[` and `]` as `]]` and then extracting with join_text(.., \"\") returns the original text.", "quantifier": "every text over U+0001..U+00FF", "why_tests_cant": "Brackets can occur in every position and run length.", "anchors": ["src/dms/multi.rs:join_text", "src/dms/multi.rs:text_spans", "src/dms/multi.rs:Display for Value"]}
{"id": "C14", "title": "text extraction ignores tags", "statement": "text_spans(ms) yields exactly the valid text items of ms in order: inserting, removing or changing any tag (valid or not) between items changes nothing else.", "quantifier": "every sequence of text spans and tags", "why_tests_cant": "The input strings form an infinite set; tests sample a few dozen literals.", "anchors": ["src/dms/multi.rs:text_spans", "src/dms/multi.rs:join_text"]}
{"id": "C15", "title": "8-bit monochrome interpolation", "statement": "Monochrome 8-bit level v yields, per component, background at 0, foreground at 255, and in between the exact rounded-down linear interpolation, never outside the two components and monotone in v.", "quantifier": "every background/foreground component and level (2^24 combinations per component) and proof of the shift trick", "why_tests_cant": "Tests check 9 points of the divide-by-255 trick.", "anchors": ["src/dms/multi.rs:ColorCtx::lerp", "src/dms/multi.rs:ColorCtx::rgb_monochrome_8"]}
{"id": "C16", "title": "color scheme admits exactly its colors", "statement": "A color in a tag is accepted on a sign exactly when the sign's color scheme can show it: levels 0/1 on 1-bit, any level on 8-bit, classic 0-9 on classic and 24-bit, RGB triples only on 24-bit; otherwise rendering produces no page and, unless another error of the page comes first, reports UnsupportedTagValue for a tag with such a color.", "quantifier": "every scheme and color", "why_tests_cant": "Needs all color values under all schemes.", "anchors": ["src/dms/multi.rs:ColorCtx::rgb", "src/dms/multi.rs:ColorCtx::set_foreground", "src/dms/multi.rs:ColorCtx::set_background"]}
{"id": "C17", "title": "classic color numbers round-trip", "statement": "ColorClassic::from_u8 accepts exactly 0..9, inverts the conversion to u8, and distinct classic colors have distinct RGB.", "quantifier": "every u8", "why_tests_cant": "Exhaustive over u8 and pairs.", "anchors": ["src/dms/multi.rs:ColorClassic::from_u8", "src/dms/multi.rs:ColorClassic::rgb"]}
{"id": "C18", "title": "sign dimension validation", "statement": "SignCfg::validate accepts exactly when border + pixels x pitch fits in the face width and height as integers, for any field values, without panicking.", "quantifier": "every SignCfg and VmsCfg field value", "why_tests_cant": "Wrap-around appears only for large pixel x pitch products.", "anchors": ["src/dms/config.rs:SignCfg::validate"]}
{"id": "C19", "title": "MULTI config validation", "statement": "MultiCfg::validate accepts exactly when at least one page is allowed and multi-page signs support [np].", "quantifier": "every MultiCfg", "why_tests_cant": "All page limits times all tag sets.", "anchors": ["src/dms/config.rs:MultiCfg::validate"]}
{"id": "C20", "title": "font table validation", "statement": "FontTable::validate accepts exactly when every numbered font has positive height, every numbered character's bitmap has exactly ceil(width x height / 8) bytes, and font numbers and character numbers (other than 0) are unique; it never panics.", "quantifier": "every font table of any size", "why_tests_cant": "All tables of all sizes; duplicates at any pair of positions.", "anchors": ["src/dms/font/mod.rs:FontTable::validate", "src/dms/font/mod.rs:Font::validate", "src/dms/font/mod.rs:Font::validate_char_numbers"]}
{"id": "C21", "title": "graphic table validation", "statement": "GraphicTable::validate(w,h) accepts exactly when every numbered graphic is at least 1x1, fits in w x h, has a bitmap of exactly the size its type needs, a transparent color of the matching kind, and graphic numbers are unique.", "quantifier": "every graphic table of any size and every sign size", "why_tests_cant": "All tables; duplicates at any pair of positions.", "anchors": ["src/dms/graphic.rs:GraphicTable::validate", "src/dms/graphic.rs:Graphic::validate"]}
{"id": "C22", "title": "a built sign is valid", "statement": "If DmsBuilder::build succeeds, the sign keeps the given configuration and fonts, its tables satisfy the font and graphic validity rules, every graphic larger than the sign has been dropped and every other graphic is kept unchanged.", "quantifier": "every builder state", "why_tests_cant": "All configurations and tables.", "anchors": ["src/dms/sign.rs:DmsBuilder::build", "src/dms/graphic.rs:GraphicTable::retain"]}
{"id": "C23", "title": "rebuilding a sign is the identity", "statement": "For any built sign, into_builder().build() succeeds and gives the same sign; and after build the number of each surviving graphic still looks up the same graphic.", "quantifier": "every built sign", "why_tests_cant": "All signs.", "anchors": ["src/dms/sign.rs:Dms::into_builder", "src/dms/sign.rs:DmsBuilder::build"]}
{"id": "C24", "title": "font and graphic tables behave like maps", "statement": "In a valid table, looking up a positive number returns the unique entry with this number; filling an unused slot obtained by number 0 makes the new number resolve to the new entry and leaves every other lookup unchanged, for any sequence of insertions.", "quantifier": "every table and every sequence of insertions", "why_tests_cant": "Histories of insertions are unbounded.", "anchors": ["src/dms/font/mod.rs:FontTable::font", "src/dms/font/mod.rs:FontTable::font_mut", "src/dms/graphic.rs:GraphicTable::graphic", "src/dms/graphic.rs:GraphicTable::graphic_mut"]}
{"id": "C25", "title": "pixel positions are ordered and on the face", "statement": "Dms::pixel_x and pixel_y are monotone in the pixel index and map pixels of the sign to positions inside 0..width (0..height).", "quantifier": "every built sign with non-zero face, every pixel pair", "why_tests_cant": "All geometry configurations, including stupid values.", "anchors": ["src/dms/sign.rs:Dms::pixel_x", "src/dms/sign.rs:Dms::pixel_y"]}
{"id": "C26", "title": "fillable line count is maximal", "statement": "The number of fillable lines reported for a rectangle (MessagePattern::widths) is the largest n such that n lines of the font with line spacing between them fit in the rectangle (character height on character/line matrix signs), and the computation ends.", "quantifier": "every sign, rectangle height and font", "why_tests_cant": "Loop bound depends on all inputs.", "anchors": ["src/dms/sign.rs:Dms::rect_lines", "src/dms/pattern.rs:MessagePattern::widths"]}
{"id": "C27", "title": "text width", "statement": "Font::text_width is the sum of the character widths plus one spacing for each character that follows non-zero width; it fails with InvalidChar of the first undefined character, exactly when there is one.", "quantifier": "every font, text and spacing", "why_tests_cant": "The input strings form an infinite set; tests sample a few dozen literals.", "anchors": ["src/dms/font/mod.rs:Font::text_width", "src/dms/font/mod.rs:Font::character"]}
{"id": "C28", "title": "glyph drawing equals is_pixel_lit", "statement": "Drawing a valid character at (x,y) sets to the foreground color exactly the pixels (x+col,y+row) for which is_pixel_lit(row,col), changes no other pixel, and never leaves the width x height box.", "quantifier": "every valid character entry, position and raster", "why_tests_cant": "All bitmaps.", "anchors": ["src/dms/font/mod.rs:CharacterEntry::render_char", "src/dms/font/mod.rs:CharacterEntry::is_pixel_lit"]}
{"id": "C29", "title": "fixed-width detection", "statement": "Font::width returns w exactly when every defined character of the font has width w (0 otherwise).", "quantifier": "every font", "why_tests_cant": "All fonts, in particular with unused slots.", "anchors": ["src/dms/font/mod.rs:Font::width"]}
{"id": "C30", "title": "version ID depends only on content", "statement": "Font::version_id ignores the name and unused character slots wherever they are; Graphic::version_id ignores the name; equal contents have equal IDs.", "quantifier": "every pair of fonts / graphics", "why_tests_cant": "All placements of unused slots.", "anchors": ["src/dms/font/mod.rs:Font::version_id", "src/dms/graphic.rs:Graphic::version_id"]}
{"id": "C31", "title": "version ID detects local corruption", "statement": "Two graphics (or two fonts) that differ only inside two adjacent bytes of their bitmap data (any 16-bit burst) always have different version IDs.", "quantifier": "every bitmap, every position, every pair of values", "why_tests_cant": "2^n bitmaps.", "anchors": ["src/dms/font/mod.rs:CRC", "src/dms/graphic.rs:Graphic::version_id", "src/dms/font/mod.rs:Font::version_id"]}
{"id": "C32", "title": "version ID input is unambiguous", "statement": "The byte string hashed into the version ID determines the content: two valid graphics (fonts) with the same byte string agree on every field but the name (and unused slots).", "quantifier": "every pair of valid graphics / fonts", "why_tests_cant": "Length-prefix and field boundaries for all sizes.", "anchors": ["src/dms/oer.rs:Oer", "src/dms/font/mod.rs:Font::version_id", "src/dms/graphic.rs:Graphic::version_id"]}
{"id": "C33", "title": "length and integer encoding decodes", "statement": "Each OER length prefix / unsigned integer written decodes to the same value, whatever follows it, and uses the shortest form.", "quantifier": "every u32 value and every following bytes", "why_tests_cant": "2^32 values.", "anchors": ["src/dms/oer.rs:Oer::uint", "src/dms/oer.rs:Oer::length_prefix"]}
{"id": "C34", "title": "tfon write/parse round trip", "statement": "Parsing what tfon::write writes for a valid font gives the same font with unused slots moved to the end; write refuses invalid fonts.", "quantifier": "every valid font", "why_tests_cant": "All fonts.", "anchors": ["src/dms/font/tfon.rs:write", "src/dms/font/tfon.rs:parse"]}
{"id": "C35", "title": "tfon parse is total", "statement": "tfon::parse returns a font or an error for every input; it never panics.", "quantifier": "every property sequence a .tfon file can contain", "why_tests_cant": "Any number of glyphs.", "anchors": ["src/dms/font/tfon.rs:parse"]}
{"id": "C36", "title": "graphic decoding", "statement": "For a valid graphic, to_raster has the graphic's dimensions and each pixel is the bitmap value at row*width+column decoded by the graphic's type (MSB-first bit, byte, or B,G,R triple), transparent where it equals the transparent color; no index is out of bounds.", "quantifier": "every valid graphic and pixel", "why_tests_cant": "All bitmaps and sizes.", "anchors": ["src/dms/graphic.rs:Graphic::to_raster", "src/dms/graphic.rs:Graphic::pixel_fn"]}
{"id": "C37", "title": "graphic placement", "statement": "Rendering a graphic at (x,y) fails exactly when it would exceed the page; otherwise it changes only pixels in its own box, and transparent pixels keep the underlying color.", "quantifier": "every valid graphic, page and position", "why_tests_cant": "All positions.", "anchors": ["src/dms/graphic.rs:Graphic::render_graphic"]}
{"id": "C38", "title": "1-bit graphics show in default colors", "statement": "A monochrome 1-bit graphic rendered with default colors shows its lit pixels in the default foreground color and unlit ones in the default background color, on a sign of any color scheme.", "quantifier": "every sign, 1-bit graphic", "why_tests_cant": "Needs each color scheme with default colors; tests never render graphics.", "anchors": ["src/dms/graphic.rs:Graphic::pixel_1", "src/dms/multi.rs:ColorCtx::rgb"]}
{"id": "C39", "title": "page size", "statement": "Every page produced by Pages (ON and OFF) has exactly the sign's pixel width and height.", "quantifier": "every sign and MULTI string", "why_tests_cant": "The input strings form an infinite set; tests sample a few dozen literals.", "anchors": ["src/dms/render.rs:Pages::build_raster", "src/dms/render.rs:Pages::render_off_page"]}
{"id": "C40", "title": "page times", "statement": "An ON page lasts the page-on time in effect after its own [pt] tags; it is followed by an OFF page exactly when the page-off time is non-zero, lasting that time and blank in the page background color.", "quantifier": "every sign and MULTI string", "why_tests_cant": "The input strings form an infinite set; tests sample a few dozen literals.", "anchors": ["src/dms/render.rs:Pages::next", "src/dms/render.rs:Pages::update_page_state"]}
{"id": "C41", "title": "page count", "statement": "If no error occurs, the number of ON pages is one more than the number of [np] tags and the iterator then ends.", "quantifier": "every sign and MULTI string", "why_tests_cant": "The input strings form an infinite set; tests sample a few dozen literals.", "anchors": ["src/dms/render.rs:Pages::next", "src/dms/render.rs:PageState"]}
{"id": "C42", "title": "unsupported tags are rejected", "statement": "If a page contains an invalid item or a tag the sign does not support, rendering this page gives an error and no page.", "quantifier": "every sign, tag set and MULTI string", "why_tests_cant": "The input strings form an infinite set; tests sample a few dozen literals.", "anchors": ["src/dms/render.rs:Pages::check_unsupported"]}
{"id": "C43", "title": "text stays in its rectangle", "statement": "Rendering text changes only pixels inside the current text rectangle, which lies inside the page.", "quantifier": "every sign and MULTI string", "why_tests_cant": "The input strings form an infinite set; tests sample a few dozen literals.", "anchors": ["src/dms/render.rs:Pages::render_text_spans", "src/dms/render.rs:Pages::offset_horiz", "src/dms/render.rs:Pages::offset_vert"]}
{"id": "C44", "title": "rendering never panics", "statement": "Iterating Pages returns pages or errors for any built sign and any MULTI string; no panic.", "quantifier": "every built sign and MULTI string", "why_tests_cant": "Combination of sign geometry, fonts and messages; counters overflow only on long messages.", "anchors": ["src/dms/render.rs:Pages::render_graphics", "src/dms/render.rs:Pages::span_x", "src/dms/render.rs:Pages::span_y", "src/dms/render.rs:Pages::render_text_rectangle"]}
{"id": "C45", "title": "oversize text is an error", "statement": "If the spans of a line are wider than the text rectangle, or its lines are taller, rendering reports TextTooBig; text that fits is accepted.", "quantifier": "every list of spans", "why_tests_cant": "The input strings form an infinite set; tests sample a few dozen literals.", "anchors": ["src/dms/render.rs:Pages::offset_horiz", "src/dms/render.rs:Pages::offset_vert"]}
{"id": "C46", "title": "justification geometry", "statement": "On a full-matrix sign, a single left span starts at the left edge, a right span ends at the right edge, a centered span has left and right margins differing by at most one pixel; same vertically for top/bottom/middle.", "quantifier": "every span, font and rectangle", "why_tests_cant": "All widths and heights.", "anchors": ["src/dms/render.rs:Pages::span_x", "src/dms/render.rs:Pages::span_y"]}
{"id": "C47", "title": "justification order", "statement": "Spans whose page justification goes backwards, or whose line justification goes backwards within a line, are rejected with TagConflict, and only those.", "quantifier": "every list of spans", "why_tests_cant": "The input strings form an infinite set; tests sample a few dozen literals.", "anchors": ["src/dms/render.rs:Pages::check_justification"]}
{"id": "C48", "title": "text rectangle acceptance", "statement": "A [tr] tag is accepted exactly when, after extending zero width/height to the sign edge, the rectangle is non-empty, lies inside the sign and is aligned to the character cells; otherwise UnsupportedTagValue.", "quantifier": "every sign and rectangle", "why_tests_cant": "All 2^64 rectangles.", "anchors": ["src/dms/render.rs:Pages::update_text_rectangle", "src/dms/multi.rs:Rectangle::intersection", "src/dms/multi.rs:Rectangle::extend_width_height"]}
{"id": "C49", "title": "color rectangle fill", "statement": "A [cr] tag paints exactly the pixels of its rectangle (zero width/height extended to the page edge) with its color, or is rejected with UnsupportedTagValue if not inside the page.", "quantifier": "every page, rectangle and color", "why_tests_cant": "All rectangles.", "anchors": ["src/dms/render.rs:render_rect"]}
{"id": "C50", "title": "page iterator ends", "statement": "Pages yields finitely many items for every message, also when rendering fails.", "quantifier": "every sign and MULTI string", "why_tests_cant": "Needs driving the iterator past an error.", "anchors": ["src/dms/render.rs:Pages::next"]}
{"id": "C51", "title": "text rectangle limit", "statement": "A page with at most 49 [tr] tags is never rejected for their number; a page with 50 or more is rejected.", "quantifier": "every page", "why_tests_cant": "The input strings form an infinite set; tests sample a few dozen literals.", "anchors": ["src/dms/render.rs:Pages::render_on_page"]}
{"id": "C52", "title": "monochrome signs show two colors", "statement": "On a monochrome 1-bit sign without 24-bit graphics, every pixel of every page is the sign's foreground or background color.", "quantifier": "every such sign and MULTI string", "why_tests_cant": "The input strings form an infinite set; tests sample a few dozen literals.", "anchors": ["src/dms/render.rs:Pages", "src/dms/multi.rs:ColorCtx::rgb_monochrome_1"]}
{"id": "C53", "title": "render state carry-over", "statement": "At the start of each page the text rectangle and line spacing are back to default, while page times, colors, font, justification and character spacing stay as the previous page left them.", "quantifier": "every sign and MULTI string", "why_tests_cant": "The input strings form an infinite set; tests sample a few dozen literals.", "anchors": ["src/dms/render.rs:Pages::update_page_state"]}
{"id": "C54", "title": "lines returns one entry per fillable line", "statement": "MessagePattern::lines(ms) returns either nothing (no match) or exactly as many entries as MessagePattern::widths.", "quantifier": "every sign, pattern and message", "why_tests_cant": "The input strings form an infinite set; tests sample a few dozen literals.", "anchors": ["src/dms/pattern.rs:MessagePattern::lines", "src/dms/pattern.rs:MessagePattern::widths"]}
{"id": "C55", "title": "widths enumerates fillable rectangles", "statement": "widths groups lines by rectangle, numbers the rectangles 0,1,2,... in order, and gives each line the width of its rectangle and a font number in effect there.", "quantifier": "every sign and pattern", "why_tests_cant": "The input strings form an infinite set; tests sample a few dozen literals.", "anchors": ["src/dms/pattern.rs:MessagePattern::widths", "src/dms/pattern.rs:PatIter::next"]}
{"id": "C56", "title": "fill then lines round-trips", "statement": "Filling a valid pattern with lines of plain text and extracting with lines(..) returns these lines, padded with empty lines (or cut) to the number of fillable lines.", "quantifier": "every sign, valid pattern and list of text lines", "why_tests_cant": "The input strings form an infinite set; tests sample a few dozen literals.", "anchors": ["src/dms/pattern.rs:MessagePattern::fill", "src/dms/pattern.rs:MessagePattern::lines"]}
{"id": "C57", "title": "fill keeps the pattern", "statement": "The output of fill contains all tags and texts of a valid pattern in order, font tags included; a pattern without fillable area is returned in canonical form.", "quantifier": "every sign and valid pattern", "why_tests_cant": "The input strings form an infinite set; tests sample a few dozen literals.", "anchors": ["src/dms/pattern.rs:MessagePattern::fill"]}
{"id": "C58", "title": "fill rejects invalid patterns", "statement": "fill returns an empty string whenever the pattern contains an invalid item or a tag the sign does not support, and only then can a non-empty pattern give an empty string.", "quantifier": "every sign and pattern", "why_tests_cant": "The input strings form an infinite set; tests sample a few dozen literals.", "anchors": ["src/dms/pattern.rs:MessagePattern::fill", "src/dms/pattern.rs:PatIter::next"]}
{"id": "C59", "title": "fill respects capacity", "statement": "fill writes at most the number of fillable lines, taken in order from the given lines, separated by [nl] within a rectangle.", "quantifier": "every sign, pattern and list of lines", "why_tests_cant": "The input strings form an infinite set; tests sample a few dozen literals.", "anchors": ["src/dms/pattern.rs:MessagePattern::fill"]}
{"id": "C60", "title": "patterns work on single-page signs", "statement": "widths, fill and lines treat the implicit first page as fillable on signs that do not support [np].", "quantifier": "every sign without [np] support", "why_tests_cant": "Tests only use signs that support [np].", "anchors": ["src/dms/pattern.rs:PatIter::next"]}
{"id": "C61", "title": "normalize removes only invalid characters from text", "statement": "As documented, normalize removes just the invalid characters (outside U+0001..U+00FF) from a text span and keeps the valid ones.", "quantifier": "every text span", "why_tests_cant": "The set of text spans is infinite; no test has an invalid character.", "anchors": ["src/dms/multi.rs:normalize", "src/dms/multi.rs:Value::try_from"]}
{"id": "C62", "title": "texts of a line are side by side", "statement": "Texts on one line are drawn side by side in the order of the message: a later text starts at or after the end of an earlier one, and neighbours are apart by exactly the character spacing in effect.", "quantifier": "every sign, message and pair of texts on a line", "why_tests_cant": "Tests render a few fixed strings; positions depend on fonts, tags, justification and everything else on the line.", "anchors": ["src/dms/render.rs:offset_horiz", "src/dms/render.rs:render_text_spans", "src/dms/render.rs:render_text_rectangle"]}
{"id": "C63", "title": "lines are stacked", "statement": "Lines of a text rectangle do not overlap: a later line is drawn below an earlier one, consecutive lines being apart by exactly the line spacing of the [nl] tag or of the fonts.", "quantifier": "every sign, message and pair of lines", "why_tests_cant": "Tests render a few fixed strings; positions depend on fonts, tags, justification and all other lines.", "anchors": ["src/dms/render.rs:offset_vert", "src/dms/render.rs:render_text_spans", "src/dms/render.rs:render_text_rectangle"]}
{"id": "C64", "title": "text is drawn exactly", "statement": "The spans drawn for a text rectangle are the texts of the message up to the next [np] or [tr], each with the attributes, line and color the preceding tags set, and on the page exactly the pixels of their characters, at their places, change to their colors.", "quantifier": "every sign with valid fonts, every message", "why_tests_cant": "The set of messages, fonts and signs is infinite; tests look at single dots.", "anchors": ["src/dms/render.rs:render_text_rectangle", "src/dms/render.rs:render_text_spans", "src/dms/font/mod.rs:Font::render_text"]}
{"id": "C65", "title": "version IDs are honoured", "statement": "A page is rendered only if every text on it uses a font of the table which has all its characters and, when the [fo] tag gives a version ID, this version ID; and every [g] tag names a graphic of the table which has the given version ID, if any.", "quantifier": "every sign with valid tables, every message and page", "why_tests_cant": "Unit tests never use version IDs in messages; the set of tables and messages is infinite.", "anchors": ["src/dms/render.rs:RenderState::font", "src/dms/render.rs:Pages::graphic", "src/dms/render.rs:render_graphics"]}
{"id": "C66", "title": "pages are composed in order", "statement": "A rendered page is the background color (last one set on the page or before), and for each text rectangle in turn its color rectangles and graphics in message order, with its text drawn over them; nothing else changes a pixel.", "quantifier": "every sign with valid tables, every message and page", "why_tests_cant": "Unit tests look at page counts and durations, not at pixels; composition depends on everything before in the message.", "anchors": ["src/dms/render.rs:render_on_page", "src/dms/render.rs:render_graphics", "src/dms/render.rs:render_text_rectangle"]}
{"id": "C67", "title": "messages a sign can show are rendered, others are not", "statement": "Let the tags of each page be in order (justification left to right and top to bottom, at most 255 values, and fonts of text in the vertical middle that fill character cells). Then the page is rendered exactly when it is well formed, all its tags are supported and implemented, colors are of the color scheme, rectangles and graphics lie inside of the sign, text rectangles are at the edges of character cells and fewer than 50, fonts and characters are defined, each line is not wider than its rectangle, and the lines are not higher; and all pages of the message are rendered without error exactly when this holds for all of them.", "quantifier": "every sign with valid tables and defaults, every message with tags in order, every page", "why_tests_cant": "A test shows that one message is accepted or rejected; that no acceptable message is rejected is a statement about all messages, signs and fonts together.", "anchors": ["src/dms/render.rs:Pages::next", "src/dms/render.rs:render_on_page", "src/dms/render.rs:check_unsupported", "src/dms/render.rs:render_text_rectangle", "src/dms/render.rs:render_graphics"]}
{"id": "C68", "title": "rectangles are sets of pixels", "statement": "The intersection of two rectangles covers exactly the pixels both cover, and a rectangle contains another exactly if all pixels of the other are in it.", "quantifier": "every two rectangles", "why_tests_cant": "All pairs of rectangles (2^128); overlaps have many cases, and edges can exceed 16 bits.", "anchors": ["src/dms/multi.rs:Rectangle::intersection", "src/dms/multi.rs:Rectangle::contains"]}
{"id": "C69", "title": "byte offsets of the MULTI iterator are at item boundaries", "statement": "The iterator over a MULTI string gives its items in order and never panics; after each of them its byte offset is the number of bytes taken, so that splitting the string there gives exactly the items before and after; at the end it stays at the end.", "quantifier": "every string, with any characters, after any number of items", "why_tests_cant": "All strings, including text of several bytes per character, where a wrong offset is a panic.", "anchors": ["src/dms/multi.rs:MultiStr::next_slice", "src/dms/multi.rs:MultiStr::split", "src/dms/multi.rs:MultiStr::chop_start"]}
{"id": "C70", "title": "a font file is read as it is", "statement": "Reading a font file which fits the table gives the font it describes: last name, number and spacings given, one character for each bitmap with the code point before it, in order, and the height of the bitmaps; files with bitmaps of different heights are refused. The font is valid exactly if the file gives a number, a height, different code points and bitmaps of their size.", "quantifier": "every property sequence with no more characters than the table has slots", "why_tests_cant": "Tests read four files; any order and repetition of properties is possible.", "anchors": ["src/dms/font/tfon.rs:parse"]}
{"id": "C71", "title": "normalizing a message does not change its pages", "statement": "A sign shows the normalized form of a message exactly like the message itself: same pages, with the same durations and the same color of every pixel.", "quantifier": "every sign and every message", "why_tests_cant": "Tests compare strings for a few messages; whether a removed tag was really redundant depends on the state of the renderer at that point, for any sequence of tags before.", "anchors": ["src/dms/multi.rs:normalize", "src/dms/render.rs:Pages::render_on_page", "src/dms/render.rs:Pages::render_text_rectangle"]}
{"id": "C72", "title": "filled patterns are shown", "statement": "When a sign renders a pattern without errors, it also renders without errors the message made by filling in lines of text that are not wider than the widths told for the pattern, in the fonts told.", "quantifier": "every sign, every pattern it renders, and all lines that fit", "why_tests_cant": "Tests fill a few patterns and compare strings; whether the result can be shown depends on fonts, spacing, text rectangles and number of lines, for any pattern and any text.", "anchors": ["src/dms/pattern.rs:MessagePattern::fill", "src/dms/pattern.rs:MessagePattern::widths", "src/dms/render.rs:Pages::render_text_rectangle"]}
{"id": "C73", "title": "written images read back", "statement": "The image writer of the examples writes a BMP file from which a reader gets the raster back: headers with the size of the image and of the file, and every pixel in its color at its place.", "quantifier": "every raster", "why_tests_cant": "The examples write two images nobody reads; row order, channel order and padding depend on width and height of the raster.", "anchors": ["examples/bmp/mod.rs:write", "examples/bmp/mod.rs:write_header", "examples/bmp/mod.rs:write_pixel_data"]}
{"id": "C74", "title": "only fonts, graphics, tags and settings in use matter", "statement": "The pages, errors and panics of a message depend only on the fonts and graphics that it uses (the default font, and those named by tags), on which of its tags are supported, and on the size, character cells, colors, default font, justification and page times of the sign: adding, removing, replacing or reordering other fonts and graphics, supporting other tags, or other settings change nothing. The same holds for widths, filling and lines of patterns.", "quantifier": "every message and pattern, and all pairs of signs agreeing in what is named, with unique numbers and a default font", "why_tests_cant": "Tests render with one table of fonts; a lookup by position, by a neighbouring entry or by the first match of something else shows only with other tables, of which there are arbitrarily many.", "anchors": ["src/dms/font/mod.rs:FontTable::font", "src/dms/graphic.rs:GraphicTable::graphic", "src/dms/render.rs:Pages", "src/dms/pattern.rs:MessagePattern", "src/dms/config.rs:MultiCfg"]}
{"id": "C75", "title": "larger signs show what smaller ones show", "statement": "A message which a sign shows without errors is shown without errors by every larger sign that is otherwise alike: as many pages, ON and OFF alike, for the same times.", "quantifier": "every message, every sign, and every larger sign of whole character cells", "why_tests_cant": "Tests render messages on one or two sizes of signs; whether positions computed from a size (centered, right, bottom, rectangles up to the edge) stay valid for all larger sizes takes an argument about every size.", "anchors": ["src/dms/render.rs:Pages", "src/dms/render.rs:offset_horiz", "src/dms/render.rs:offset_vert", "src/dms/multi.rs:Rectangle::extend_width_height"]}
{"id": "C76", "title": "colors of a sign only recolor its pages", "statement": "Signs that differ only in their colors (default colors, LEDs) show a message alike: same errors, as many pages, for the same times, and at each place both pixels have the default foreground color of their sign, or both the background color, or both are what their sign shows for the same color value. For messages without color tags and graphics the color schemes may differ too.", "quantifier": "every message, and all pairs of signs that are alike but for their colors", "why_tests_cant": "Tests render with one or two palettes; that no position, size, time or error depends on a color is a statement about all palettes and messages at once.", "anchors": ["src/dms/multi.rs:ColorCtx", "src/dms/render.rs:Pages", "src/dms/sign.rs:Dms::color_ctx"]}
{"id": "C77", "title": "moving rectangles and graphics moves the picture", "statement": "If all text rectangles, color rectangles (with sizes) and graphics of a message are moved by the same displacement and stay inside of the sign, and all text is in text rectangles, then the message is shown as before: as many pages, for the same times, and every pixel has the color of the pixel it comes from.", "quantifier": "every message, every displacement, every sign", "why_tests_cant": "Tests fix positions of rectangles; that no layout decision depends on the absolute position (only on the rectangle) concerns all pairs of positions.", "anchors": ["src/dms/render.rs:span_x", "src/dms/render.rs:baseline", "src/dms/render.rs:update_text_rectangle", "src/dms/graphic.rs:render_graphic"]}
{"id": "C78", "title": "only the values of a message matter", "statement": "Two messages whose items have the same values (whatever the spelling of the tags: upper or lower case, leading zeros, signs) have the same pages, errors and panics on every sign; patterns with the same values have the same widths, are filled alike, and find the same lines in messages.", "quantifier": "every pair of messages with the same values, every sign", "why_tests_cant": "Tests write each tag in one spelling; that no later stage looks at the source text of a tag concerns all spellings of all messages.", "anchors": ["src/dms/render.rs:Pages::next", "src/dms/render.rs:render_on_page", "src/dms/pattern.rs:PatIter", "src/dms/multi.rs:Value::try_from"]}
{"id": "C79", "title": "appended pages do not change earlier ones", "statement": "When a page break and more text are appended to a message, the pages of the message are shown first, unchanged; and if the message leaves all attributes (font, justification, character spacing, colors, page times) at the defaults of the sign, then what is appended is shown as if it was a message of its own.", "quantifier": "every pair of messages, every sign supporting page breaks", "why_tests_cant": "Tests render single messages; that nothing but the attributes leaks from one page to the next, or back, concerns all pairs of messages.", "anchors": ["src/dms/render.rs:Pages::next", "src/dms/render.rs:update_page_state", "src/dms/render.rs:render_text_rectangle"]}
{"id": "C80", "title": "blank messages show blank pages", "statement": "A message that is_blank accepts, on a sign whose white space characters have no lit pixels, shows only blank pages: every pixel of every page has the background color of this page.", "quantifier": "every message accepted by is_blank, every sign with valid fonts and graphics whose white space characters are clear", "why_tests_cant": "The check on the text of a message and the drawing of its pages are separate code; that they agree concerns all messages and fonts.", "anchors": ["src/dms/multi.rs:is_blank", "src/dms/render.rs:Pages::next", "src/dms/font/mod.rs:Font::render_text"]}
{"id": "C81", "title": "the look of a message determines its pages", "statement": "The look of a message lists, per page, its times, its background, and per text rectangle the graphics and rectangles painted and the texts with their attributes, adjacent texts of the same attributes as one.  A message whose values are in order is accepted exactly when its values can be shown and the texts of its look fit; its pages then are the only picture of its look.  So messages of the same look show the same pages: tags that set an attribute to what it is already may be left out, texts may be split or joined, characters may be written as hexadecimal.", "quantifier": "every message whose values are in order, every sign with valid fonts and graphics whose characters all have a positive width; joined texts are not centered on signs with character cells", "why_tests_cant": "There are infinitely many ways to write the same message; the renderer handles each tag with separate code and moves state between texts, so equality of the results concerns all of them.", "anchors": ["src/dms/render.rs:Pages::next", "src/dms/render.rs:Pages::render_on_page", "src/dms/multi.rs:normalize"]}
{"id": "C82", "title": "release builds show the same", "statement": "Release builds, which do not check arithmetic for overflow, show the same pages, and give the same errors, as builds with overflow checks; where the latter panic, release builds give an error and show nothing wrong.", "quantifier": "every sign and every message", "why_tests_cant": "Tests run with overflow checks; signs in the field run release builds.  That both agree concerns every arithmetic operation of the renderer, for all messages.", "anchors": ["src/dms/render.rs:Pages::next", "src/dms/render.rs:Pages::offset_horiz", "src/dms/font/mod.rs:Font::text_width", "src/dms/multi.rs:Rectangle::intersection"]}
{"id": "C83", "title": "errors tell of a fault of the message", "statement": "Each error of the renderer tells of a fault that the page has: UnsupportedTag and UnsupportedTagValue name an item that is no valid tag, a tag that the sign does not support, or a value it can not show; GraphicNotDefined, FontNotDefined and CharacterNotDefined name what is missing in the tables of the sign; GraphicID and FontVersionID are given for a version that differs from the table; TagConflict is given only for adjacent texts whose justifications go backwards; TextTooBig only for a line wider than its text rectangle, or lines that are together higher than it; \"Graphic too big\" and \"Too many text rectangles\" as they say.", "quantifier": "every message, every page, every sign that has pixels and less than 65535 rows and columns; also errors that come after other errors", "why_tests_cant": "Tests see an error for a few wrong messages; that no correct page ever gets an error, or the error of another fault, concerns all messages and signs.", "anchors": ["src/dms/render.rs:Pages::next", "src/dms/render.rs:Pages::check_unsupported", "src/dms/render.rs:Pages::render_text_rectangle", "src/dms/render.rs:Pages::offset_horiz", "src/dms/render.rs:Pages::offset_vert", "src/dms/multi.rs:SyntaxError"]}
{"id": "C84", "title": "the grammar of MULTI", "statement": "An item of a message is valid exactly if the grammar of MULTI has it, and then it has the value that the grammar gives it: `[[` and `]]` are brackets; tags are a name in upper or lower case and its parameters - numbers with or without `+` and leading zeros within the range of their type, separated by commas, optional parameters, versions of 4 hexadecimal characters, times of [pt] and [fl] with `o` and `t` between them, justifications as digits, free text of [ms] and [mv]; anything else without a bracket at its beginning is text, if all its characters are U+0001 to U+00FF.  The grammar is not ambiguous.", "quantifier": "every string as item, every message, every value", "why_tests_cant": "Tests parse some hundred tags; the set of accepted strings is infinite, and both directions (all of the grammar, and nothing else) concern every string.", "anchors": ["src/dms/multi.rs:Value::try_from", "src/dms/multi.rs:parse_tag", "src/dms/multi.rs:parse_version_id", "src/dms/multi.rs:parse_moving_text"]}
{"id": "C85", "title": "text on character cells", "statement": "On a sign filled by its character cells, text in fonts made for the cells (characters as wide and high as a cell, no spacing) is drawn cell by cell: whatever the message, its justification, text rectangles and line breaks, every character is in a cell of its own text rectangle, characters of a text follow each other cell by cell, and a pixel changes exactly if it is lit in the bitmap of the character of its cell.", "quantifier": "every message, every sign whose size is a multiple of the cell size, every text rectangle of every page drawn in fonts made for the cells", "why_tests_cant": "Tests show two messages on one sign with cells; the claim depends on justification, text rectangles, widths of all texts on a line and rounding to cells, in all combinations.", "anchors": ["src/dms/render.rs:Pages::span_x_center", "src/dms/render.rs:Pages::span_x_right", "src/dms/render.rs:Pages::baseline_middle", "src/dms/render.rs:Pages::baseline_bottom", "src/dms/render.rs:Pages::offset_horiz", "src/dms/render.rs:Pages::update_text_rectangle"]}
{"id": "C86", "title": "no color that was not asked for", "statement": "Every pixel of every page (ON or OFF) has a color that was asked for: a default color of the sign, the color of a color tag of the message as the sign's color scheme shows it, or the color of a pixel, which is not transparent, of a graphic of the message. In particular a message without color tags and color graphics shows the two default colors on every sign; an 8-bit sign shows its levels and a classic sign the ten classic colors besides the default colors.", "quantifier": "every sign with valid fonts and graphics, every message, every page without an error before it, every pixel", "why_tests_cant": "Tests compare a few images; a wrong color (of another page, of a graphic not in the message, of a transparent pixel, an interpolated color out of range) can appear in any of the infinitely many messages.", "anchors": ["src/dms/render.rs:Pages::next", "src/dms/render.rs:Pages::render_graphics", "src/dms/multi.rs:ColorCtx::rgb", "src/dms/graphic.rs:Graphic::render_graphic"]}
{"id": "C87", "title": "build errors tell the first fault", "statement": "If building a sign fails, the error tells of a fault the given configuration really has, and of the first one in a fixed order: dimensions, page configuration, fonts (the first invalid font with its first fault, then font numbers used twice), graphics likewise; conversely each such fault is reported. Errors InvalidNumber and TooBig are never given.", "quantifier": "every configuration, font table and graphic table", "why_tests_cant": "Tests build a few wrong configurations; which of several faults is reported, and that nothing else is, is about all combinations of tables.", "anchors": ["src/dms/sign.rs:DmsBuilder::build", "src/dms/font/mod.rs:FontTable::validate", "src/dms/font/mod.rs:Font::validate", "src/dms/graphic.rs:GraphicTable::validate", "src/dms/graphic.rs:Graphic::validate"]}
{"id": "C88", "title": "widths of patterns are the largest possible", "statement": "The widths told for the lines of a pattern are not only safe but the largest possible: when a pattern is filled with lines of which one is wider than told for it, or has characters its font lacks, the sign rejects the message. So a filled pattern is shown exactly when all of its lines fit.", "quantifier": "every sign, every pattern it renders, and all lines of plain text", "why_tests_cant": "Tests fill in a few lines; that no pixel is given away and none too many is told is about every pattern, font and text.", "anchors": ["src/dms/pattern.rs:MessagePattern::fill", "src/dms/pattern.rs:MessagePattern::widths", "src/dms/render.rs:Pages::render_text_rectangle", "src/dms/font/mod.rs:Font::text_width"]}
{"id": "C89", "title": "limits of the sign on messages are kept", "statement": "A message with more pages than dmsMaxNumberPages of the sign, or longer than dmsMaxMultiStringLength, is not rendered without an error.", "quantifier": "every sign and every message", "why_tests_cant": "Tests render short messages; that there is a check at all, for all limits and lengths, is about every sign.", "anchors": ["src/dms/config.rs:MultiCfg", "src/dms/render.rs:Pages::next", "src/dms/multi.rs:SyntaxError::TooManyPages"]}
{"id": "C90", "title": "the error of a page is that of its first fault", "statement": "If a page has several faults, the error given is that of the first one: items that are not valid or not supported come first, in the order of the page; then background colors of the page; then its text rectangles one after the other, each with colors and graphics (in order), line and character spacing tags, justification, undefined fonts and characters, and texts too big. A page without faults is shown.", "quantifier": "every sign, every message, every page, and every combination of faults on the page", "why_tests_cant": "Tests have one fault in a message; which of several faults is told of depends on the order of checks in several passes over the page.", "anchors": ["src/dms/render.rs:Pages::render_on_page", "src/dms/render.rs:Pages::check_unsupported", "src/dms/render.rs:Pages::render_text_rectangle", "src/dms/multi.rs:Value"]}
{"id": "C91", "title": "the values of a page determine its picture", "statement": "The picture of an ON page is completely determined by the sign, the values of the page, the text attributes set before and the background color: it is the background with, for each text rectangle, color rectangles and graphics in order and then each text once, at the place given by its line, its number on the line and the texts around it, whether the tags are in order or not. No other picture meets this description, and a page that has no fault is always shown so.", "quantifier": "every sign with valid fonts and graphics, every message, every ON page without earlier errors", "why_tests_cant": "A test compares one picture with one expectation; that the description leaves no freedom, for tags in any order, is about all messages and all pictures.", "anchors": ["src/dms/render.rs:Pages::render_on_page", "src/dms/render.rs:Pages::span_x", "src/dms/render.rs:Pages::span_y", "src/dms/render.rs:Pages::render_text_spans"]}
{"id": "C92", "title": "everything that is given for a message: its pages, or its first error", "statement": "For a message on which rendering does not panic, the iterator gives its pages without an error exactly when no page has a fault; then the pages are the only ones described by its values: for each page an ON page with its picture and duration, and an OFF page in the background color when its off-time is not zero, with attributes carried from page to page. Otherwise the first error given is that of the first fault of the first page that has one, and no other.", "quantifier": "every sign with valid fonts and graphics, every message on which rendering does not panic (all messages of C44), every list of pages and every error", "why_tests_cant": "It is an equivalence over all messages and all outcomes: tests sample messages, and can not show that a description excludes every other outcome.", "anchors": ["src/dms/render.rs:Pages::next", "src/dms/render.rs:Pages::render_on_page", "src/dms/render.rs:Pages::render_off_page", "src/dms/render.rs:Pages::check_unsupported"]}
{"id": "C93", "title": "exactly when rendering panics, and what comes first", "statement": "For every message of at most 128 characters (or sizes within 16 bits), whatever its tags: its pages are given without error up to an error or a panic, exactly when that error or panic is the first stop of the first page that has one. The stops of a page are, in this order: items on which the parser panics, invalid items and unsupported tags; background colors; then for each text rectangle its tags without implementation, colors, color rectangles (a panic when an edge is beyond 16 bits) and graphics, its text tags, the next text rectangle (a panic when an edge is beyond 16 bits), and its texts, where text in the vertical middle panics when the character cell it is put in ends nearer to the top of the sign than the height of its font.", "quantifier": "every sign with valid fonts and graphics and supported defaults, every message of at most 128 characters, every page reached, every error", "why_tests_cant": "It is an equivalence over all messages: tests find messages that panic, but can not show that no other message does, nor that every message of the description does.", "anchors": ["src/dms/render.rs:Pages::next", "src/dms/render.rs:Pages::render_on_page", "src/dms/render.rs:Pages::render_graphics", "src/dms/render.rs:Pages::render_text_rectangle", "src/dms/render.rs:Pages::baseline_middle"]}
{"id": "C94", "title": "everything that is given for a message, also after errors", "statement": "For every message that does not panic, the whole list of items given by the iterator (pages, OFF pages and errors) is the one told by its items alone: a page without fault is shown with its picture and times, followed by its OFF page; for any other page its first error is given, and what follows depends on the kind of that fault: the same page again and again for wrong items and background colors (so that there is no end), the text rectangle in question as the begin of a page for colors and graphics, nothing but an OFF page for tags of text the sign can not show, the text after a wrong text rectangle tag as a page, and for texts which can not be drawn the OFF page and the next page, or the following text rectangles as a page of their own.", "quantifier": "every sign with valid fonts and graphics, every message without panic, every number and kind of errors in it; sides below 65535 pixels", "why_tests_cant": "It is an equivalence over all messages and all combinations of errors on any number of pages; what is given after an error depends on the state the error leaves behind in the iterator, which no finite set of messages covers.", "anchors": ["src/dms/render.rs:Pages::next", "src/dms/render.rs:Pages::render_on_page", "src/dms/render.rs:Pages::render_off_page", "src/dms/render.rs:Pages::render_text_rectangle", "src/dms/render.rs:Pages::page_state"]}
{"id": "C95", "title": "an error on one page does not affect the other pages", "statement": "A page that can not be shown gives one error at its place, and all other pages (with their OFF pages, times, colors and text attributes) are given as they would be without the error.", "quantifier": "every sign, every message, every combination of pages with errors", "why_tests_cant": "It is about every combination of errors and pages before and after them; the attributes carried over an error depend on where in the page it happened.", "anchors": ["src/dms/render.rs:Pages::next", "src/dms/render.rs:Pages::render_on_page", "src/dms/render.rs:Pages::page_state"]}
{"id": "C96", "title": "shorter texts are shown, too", "statement": "When a message is shown without errors, so is every message that has the same tags and shorter texts: characters of texts left out (but no text completely), or texts replaced by ones that the fonts of the sign have the characters of and that are not wider. All pages have the same sizes and times.", "quantifier": "every sign with valid fonts and graphics, every message that is shown (also with lines and justifications in any order), every choice of characters to leave out; sides below 65535 pixels, and messages whose sizes of text fit in 16 bits (all those of at most 128 characters)", "why_tests_cant": "It relates the results of two messages, for all messages and all ways to shorten their texts; no finite set of pairs settles it.", "anchors": ["src/dms/render.rs:Span::width", "src/dms/render.rs:Span::render_text", "src/dms/render.rs:Pages::render_text_spans", "src/dms/font/mod.rs:Font::text_width"]}
{"id": "C97", "title": "another text changes its own line only", "statement": "When texts of a message are replaced by any other texts, and both messages are shown, then their pages have the same sizes and times, and differ only in pixels in the rows of a line with another text (of the texts with its justification), in the columns of its text rectangle. Other lines, other text rectangles, graphics and color rectangles, and pages without another text stay as they are.", "quantifier": "every sign with valid fonts and graphics, every pair of shown messages with the same tags, every pixel of every page", "why_tests_cant": "It relates all pixels of the results of two messages, for all pairs of messages that differ in their texts; no finite set of pairs settles it.", "anchors": ["src/dms/render.rs:Pages::render_text_spans", "src/dms/render.rs:Pages::span_x", "src/dms/render.rs:Pages::span_y", "src/dms/render.rs:Span::render_text"]}
{"id": "C98", "title": "texts with room are seen completely", "statement": "When the texts of a text rectangle are in order (justification from left to right and from top to bottom) and have room (left and right text of a line fit beside each other, and two times beside centered text; lines at the top and bottom fit above each other, and two times with those in the middle), then no two texts overlap, and every pixel of every character is shown in the color of its text, unless a later text rectangle, or a color rectangle or graphic after the next [tr] tag, is there.", "quantifier": "every sign with valid fonts and graphics whose font heights are whole character cells (or without character cells), every message, every page before the first error, every text rectangle with room, every pixel of its texts", "why_tests_cant": "It is about all layouts of texts: any number of lines, fonts, justifications and spacings; tests show single layouts.", "anchors": ["src/dms/render.rs:Pages::span_x", "src/dms/render.rs:Pages::span_y", "src/dms/render.rs:Pages::render_text_spans", "src/dms/font/mod.rs:Font::render_text"]}
{"id": "C99", "title": "a page of a message can be shown alone", "statement": "When a message is shown, the message made of the tags whose effect stays ([fo], [jl], [jp], [sc], [/sc], [cf], [cb], [pb], [pt]) of the pages before a page, and of the values of this page, gives exactly the ON page of this page and the OFF page after it: the same pixels, sizes and times. Nothing else of earlier pages has an effect. (With a [cb] tag before, the page must not have a graphic.)", "quantifier": "every sign made by the builder with usable defaults, every message that is shown, every page of it; sides below 65535 pixels, and messages whose sizes of text fit in 16 bits (all those of at most 128 characters)", "why_tests_cant": "It compares renderings of two messages, for all messages; state that leaks from one page to the next is seen only with special messages.", "anchors": ["src/dms/render.rs:Pages::render_on_page", "src/dms/render.rs:Pages::render_text_rectangle", "src/dms/render.rs:Pages::update_page_state"]}
{"id": "C100", "title": "messages one after another", "statement": "Two messages with a new page and tags between them that take back everything ([np][fo][jl][jp][/sc][cf][pb] and [pto], or other tags with this effect) are shown exactly if each of them is shown alone, and what is given is what is given for the first one, followed by what is given for the second one. So no state but that of these tags is kept from page to page.", "quantifier": "every sign made by the builder with usable defaults that supports these tags, all pairs of messages; sides below 65535 pixels, and messages whose sizes of text fit in 16 bits (all those of at most 128 characters)", "why_tests_cant": "It relates the renderings of three messages, for all pairs of messages; hidden state is seen only with special pairs.", "anchors": ["src/dms/render.rs:Pages::next", "src/dms/render.rs:Pages::render_on_page", "src/dms/render.rs:Pages::update_page_state", "src/dms/render.rs:Pages::render_text_rectangle"]}
{"id": "C101", "title": "a text rectangle is like a sign of its own", "statement": "A message that a sign shows can be shown on a larger sign which differs in size only: with a text rectangle of the size of the smaller sign at the beginning of each page (and with explicit sizes for rectangles whose size was left open), every page is seen unchanged in the upper left corner for the same time, and the rest of the larger sign has the background color of the page.", "quantifier": "every sign made of valid tables with usable defaults whose fonts fit into its lines, every larger size whose character cells fit, every message with at most 48 text rectangles on a page; sides below 65535 pixels, and messages whose sizes of text fit in 16 bits (all those of at most 128 characters)", "why_tests_cant": "It relates the renderings of two messages on two signs, for all messages, pixels and sizes.", "anchors": ["src/dms/render.rs:Pages::render_text_rectangle", "src/dms/render.rs:Pages::render_graphics", "src/dms/render.rs:Pages::update_text_rectangle", "src/dms/render.rs:Pages::next"]}
{"id": "C102", "title": "defaults of a sign are like tags at the beginning", "statement": "The default font, line and page justification and page times of a sign have the effect of the tags [fo], [jl], [jp] and [pt] at the beginning of each message, and of their values wherever such a tag leaves its value open: a sign with other defaults shows a message exactly if the sign shows the message with these tags written, and all pages are the same. So a message that writes all of them does not depend on the defaults of the sign.", "quantifier": "every sign made of valid tables with usable defaults that supports [fo], [jl], [jp] and [pt], every choice of usable other defaults, all messages; sides below 65535 pixels, and messages whose sizes of text fit in 16 bits (all those of at most 128 characters)", "why_tests_cant": "It relates two signs and two messages, for all messages and all defaults.", "anchors": ["src/dms/render.rs:Pages::new", "src/dms/render.rs:Pages::render_text_rectangle", "src/dms/render.rs:Pages::update_page_state"]}
{"id": "C103", "title": "of tags for style, only what they have set matters", "statement": "Tags for font, character spacing, foreground and background color, page background and page times matter only by what they have set in the end: with other such tags in their place, in another order, overridden at once or left out as redundant, all allowed on the sign and setting the same, a message is shown exactly if it was shown before, and all pages are the same. Of [cb] this holds only if no graphic follows.", "quantifier": "every sign made of valid tables with usable defaults, all messages, every place in them and all lists of tags for style there; sides below 65535 pixels, and messages whose sizes of text fit in 16 bits (all those of at most 128 characters)", "why_tests_cant": "It relates two messages, for all lists of tags, everything before them and everything after them.", "anchors": ["src/dms/render.rs:Pages::render_text_rectangle", "src/dms/render.rs:Pages::update_page_state", "src/dms/render.rs:Pages::render_graphics"]}
{"id": "C104", "title": "the rendering example writes an image of every page", "statement": "The rendering example writes, for every sign and message, an image of each page (ON and OFF) given before the first error, in order, in files of their own named by number, from which each pixel can be read back. It ends well exactly if the message is shown, otherwise with the error of the first stop of the message. As it is, with its own sign and message, it writes the images of its pages.", "quantifier": "every sign made by the builder whose images fit in 32 bits, all messages", "why_tests_cant": "Examples are not tested; the claim is for all messages, signs and pixels.", "anchors": ["examples/render.rs:main", "examples/render.rs:make_dms", "examples/bmp/mod.rs:write"]}
{"id": "C105", "title": "fonts are found by their names", "statement": "Looking up a name gives the first font in the table with exactly this name, or nothing when no font has it. Fonts with new and different names put in unused slots are all found by their names, and other names give what they gave before. A font from a file is found by the name in the file exactly if this has at most 64 bytes and no NUL character; longer names are cut, and such a font is not found by its full name.", "quantifier": "every table, every name, every sequence of insertions, every font file", "why_tests_cant": "The only test looks up one name in a table of two fonts; histories of insertions, equal beginnings of names and long names are not tried.", "anchors": ["src/dms/font/mod.rs:FontTable::font_by_name", "src/dms/font/mod.rs:FontTable::font_mut"]}
{"id": "C106", "title": "the order of drawings and texts does not matter", "statement": "Color rectangles and graphics may be written before, among or after the texts and other tags of their text rectangle (graphics not on the other side of a tag for foreground or background color), and in any order among themselves when they have no pixel in common: a message is shown exactly if it is shown after such exchanges, and all pages are the same.", "quantifier": "every sign made of valid tables with usable defaults and sides below 65535 pixels, all messages whose sizes of text fit in 16 bits (all those of at most 128 characters), and all sequences of such exchanges", "why_tests_cant": "It relates two messages, for all sequences of exchanges, everything before and everything after them.", "anchors": ["src/dms/render.rs:Pages::render_graphics", "src/dms/render.rs:Pages::render_text_rectangle"]}
{"id": "C107", "title": "the graphic example writes an image of its graphic", "statement": "What the graphic example does gives, for every valid graphic of monochrome 1-bit, classic or 24-bit color, an image file of the size of the graphic, from which each pixel can be read back in the color of the graphic there; transparent pixels, and those without a color, are black. As it is, it writes its arrow, white on black.", "quantifier": "every valid graphic of these three types, all pixels", "why_tests_cant": "Examples are not tested; the claim is for all graphics and pixels.", "anchors": ["examples/graphic.rs:main", "examples/bmp/mod.rs:write", "src/dms/graphic.rs:Graphic::to_raster"]}
{"id": "C108", "title": "tags that say the same are shown the same", "statement": "Two messages whose items agree, or say the same in other words, give the same results: the same pages, and errors at the same places, which name the tag as written. The same in other words are: colors that the sign shows alike (such as a classic number and its RGB values on a 24-bit sign), defaults left out or named (font, justification, times; default colors too, but on signs other than 24-bit only in messages without graphics), sizes of rectangles left open or written out, a graphic without place or at 1,1, version IDs given or left out, and a character by its number.", "quantifier": "every sign (fonts and graphics need not be valid), every message, also with errors; any number of such replacements at once", "why_tests_cant": "All signs, all messages, all colors and places of replacement; unit tests compare single messages.", "anchors": ["src/dms/render.rs:Pages", "src/dms/render.rs:RenderState", "src/dms/multi.rs:ColorCtx", "src/dms/multi.rs:Rectangle::extend_width_height"]}
{"id": "C109", "title": "release builds reject all rectangles off the sign alike", "statement": "In a release build it does not matter which rectangle off the sign a [tr] or [cr] tag has, also if its edges need more than 16 bits (where a build with overflow checks panics): messages that differ in such rectangles only give the same pages, and errors at the same places, which name the rectangle as written. So a release build does not panic on account of rectangles: its results are those of a build with overflow checks for a message of such rectangles within 16 bits.", "quantifier": "every sign of less than 65535 pixels in each direction, every message; for the absence of panics the signs and messages of C44, without any condition on rectangles", "why_tests_cant": "All rectangles of 16-bit numbers, in all messages, compared between two builds; unit tests run in one build.", "anchors": ["src/dms/render.rs:render_rect", "src/dms/render.rs:Pages::update_text_rectangle", "src/dms/multi.rs:Rectangle::intersection"]}
{"id": "C110", "title": "drawings that are painted over can be left out", "statement": "A color rectangle or graphic cannot be seen if each pixel that it paints is painted again by color rectangles or graphics after it in the same text rectangle: a message with it is shown exactly if the sign can draw it (its tag is supported, and it is there and inside of the sign) and the message without it is shown, and all pages are the same. Examples are a color rectangle inside of a later one, and anything before a color rectangle of the whole sign.", "quantifier": "every sign made of valid tables with usable defaults and sides below 65535 pixels, all messages whose sizes of text fit in 16 bits (all those of at most 128 characters), with such a drawing at any place, and without it", "why_tests_cant": "All signs, all messages, all graphics, and all ways to cover a drawing by several others.", "anchors": ["src/dms/render.rs:Pages::render_graphics", "src/dms/render.rs:render_rect"]}
{"id": "C111", "title": "different texts look different", "statement": "When two messages have the same tags, and texts of characters of the same widths (for example any texts of the same lengths in fonts of one width), which differ in at least one character, they are never shown with the same pages: the texts can be read off the pages, if no two characters of a font have the same width and pixels, and the texts are seen, that is in order, with room beside each other (C98), in colors other than the background, on pages without graphics, color rectangles and text rectangles.", "quantifier": "every sign with valid tables whose fonts have no two alike characters, every two such messages of any number of pages, lines and texts", "why_tests_cant": "All pairs of messages, fonts and signs: a statement about all pictures being different, not about one picture.", "anchors": ["src/dms/render.rs:Pages::render_text_spans", "src/dms/font/mod.rs:Font::render_text"]}
{"id": "C112", "title": "the numbers and names of fonts and graphics are names only", "statement": "If the fonts and graphics of a sign get other numbers (different ones for different numbers) and other names, and the numbers in the tags of a message and of the default font are changed in the same way (with the version IDs which the renamed fonts and graphics have), then everything is rendered as before: the same pages with the same times, the same errors at the same items (naming the new numbers), and a panic only if there was one before.  The sign with new numbers is still built, if unused slots stay unused, and has as many lines in each rectangle.", "quantifier": "every sign, every injective change of numbers, every change of names, every message, also with errors, and every number of results", "why_tests_cant": "All tables, all permutations of numbers and all messages; a test has one table with one numbering.", "anchors": ["src/dms/render.rs:RenderState::font", "src/dms/render.rs:Pages::graphic", "src/dms/font/mod.rs:FontTable::font", "src/dms/graphic.rs:GraphicTable::graphic"]}
{"id": "C113", "title": "text added below does not move the text above", "statement": "When text and tags of its style are added at the end of a message, beginning with a new line after text at the top, or with a later page justification, and both messages are shown (with the justifications of the last text rectangle in order), then all pages but the last one are the same, and the last one has the same size and times.  Its pixels are the same, except for pixels which are lit by an added text, and these are below all old texts with the page justification of that text.  So nothing shown before moves or disappears, unless added text is drawn over it.", "quantifier": "every valid sign, every message with any pages, text rectangles, graphics and styles, and every text added to it", "why_tests_cant": "All messages, all additions and all fonts: the place of a line depends on all lines with the same page justification, the heights of their fonts and their line spacings.", "anchors": ["src/dms/render.rs:Pages::render_text_spans", "src/dms/render.rs:Pages::offset_vert", "src/dms/render.rs:Pages::span_y"]}
{"id": "C114", "title": "page times do not change the pictures", "statement": "Two messages whose values are the same apart from [pt] tags, on a sign with that tag, are both shown without error or both not, and the pictures of their ON pages are the same, one by one.  The durations depend on the [pt] tags only: each page has the times of the last [pt] tag before its end, and an OFF page follows exactly the pages whose off-time is not zero.", "quantifier": "every valid sign, all pairs of messages which differ by any number of [pt] tags at any places", "why_tests_cant": "All messages and all places of the tags: a tag between two texts, before a new line, or in a text rectangle could split a line or change its style.", "anchors": ["src/dms/render.rs:Pages::update_page_state", "src/dms/render.rs:Pages::page_on_time_ds", "src/dms/render.rs:Pages::page_off_time_ds"]}
{"id": "C115", "title": "text rectangles without common pixels can be exchanged", "statement": "Two text rectangles one after the other, with no pixel in common, whose values are texts and tags of text style, and which leave the style of text and the line spacing as they were, can be exchanged: if the message is shown without error then so is the message with the two in the other order, with the same number of pages, the same pictures of the ON pages, pixel by pixel, and the same durations.", "quantifier": "every valid sign whose fonts are as high as the character cells (always so on signs without cells), all messages, all pairs of neighbouring text rectangles on any page", "why_tests_cant": "All contents, sizes and places of the rectangles and all messages around them: a pixel of text drawn outside of its rectangle, or a state kept from one rectangle to the next, would show for some of them only.", "anchors": ["src/dms/render.rs:Pages::render_on_page", "src/dms/render.rs:Pages::render_text_rectangle", "src/dms/render.rs:Pages::update_text_rectangle", "src/dms/render.rs:Pages::render_text_spans"]}
{"id": "C116", "title": "a text rectangle told twice is the same as told once", "statement": "A text rectangle of texts and tags of text style, which leaves the style of text and the line spacing as they were, may be told twice in a row: exactly the same pages are shown, if there are then fewer than 50 text rectangles on the page; else the message with the two is not shown.", "quantifier": "every valid sign, all messages, any text rectangle on any page", "why_tests_cant": "All contents of the rectangle, and all messages around it.", "anchors": ["src/dms/render.rs:Pages::render_on_page", "src/dms/render.rs:Pages::render_text_rectangle", "src/dms/render.rs:Pages::update_text_rectangle", "src/dms/render.rs:Pages::render_text_spans"]}
{"id": "C117", "title": "what is painted over is not seen", "statement": "When the drawings (color rectangles, graphics) of a text rectangle cover the whole sign, nothing of the page that comes before it in the message is seen: neither its texts nor its drawings.  Two messages shown without error, which differ only in what is before that text rectangle on its page, have exactly the same pages, if they set the same for what follows (style of text, line spacing, page times, background).  Text rectangles before it, which set nothing for what follows, can be left out.", "quantifier": "every valid sign, all messages, any page, all drawings that cover the sign together, any values before and after", "why_tests_cant": "All texts and drawings that may be hidden, and all ways to cover a sign.", "anchors": ["src/dms/render.rs:Pages::render_on_page", "src/dms/render.rs:Pages::render_graphics", "src/dms/render.rs:Pages::render_text_rectangle", "src/dms/render.rs:render_rect"]}
{"id": "C118", "title": "text typed on does not move the text to its left", "statement": "When more text is added at the end of a message, on the same line and in the same font, then the text shown before does not move or change, unless it is in the center or at the right: the pages before are the same, and the last page has the same size and time.  Its pixels are the same, except for pixels lit by the added text, and those are to the right of all texts that were on the line with that line justification.  So a message that is typed from left to right grows on the sign in the same way.  Text in the center or at the right of the line may be added after text at the left without moving it.", "quantifier": "every valid sign, all messages that keep to one rule for tags within a page (as in C113), all added texts, colors, spacings and line justifications", "why_tests_cant": "All messages, and all texts that may be added to them.", "anchors": ["src/dms/render.rs:Pages::render_text_spans", "src/dms/render.rs:Pages::span_x", "src/dms/render.rs:Pages::offset_horiz", "src/dms/render.rs:Pages::span_y", "src/dms/render.rs:Pages::baseline", "src/dms/render.rs:Pages::offset_vert"]}
{"id": "C119", "title": "version IDs tell of a few changed bits", "statement": "When an odd number of bits of the bitmap of a graphic, or of the characters of a font, is changed, so is its version ID; also when one, two or three bits are changed, if the bitmap (the data of the characters) has at most 4095 bytes; and when only bits within 16 consecutive bits are changed, also if they do not begin with a byte.  When exactly two bits are changed, the version ID stays the same exactly if they are a multiple of 32767 bits apart.", "quantifier": "all graphics and fonts, all bitmaps, all positions of the changed bits, also in several characters", "why_tests_cant": "All sets of changed bits; there are thousands of billions of sets of three bits in one graphic.", "anchors": ["src/dms/font/mod.rs:Font::version_id", "src/dms/graphic.rs:Graphic::version_id", "src/dms/font/mod.rs:CRC", "src/dms/graphic.rs:CRC"]}
{"id": "C120", "title": "justification moves text as a whole", "statement": "When the page justification of the text at the end of a message (in a text rectangle without other text) is changed, only the last page changes, and there the text is moved up or down as a whole: both pages are the page without the text, with the same picture of the text over it, as high as its lines, with its upper edge at the top, in the middle or at the bottom of the text rectangle.  The same for the line justification of one line of text, which is moved to the left or right; its picture is as wide as the line of text.", "quantifier": "all valid signs, all messages, all texts with any fonts, colors, spacings and (for the page justification) lines and line justifications, all text rectangles, all pairs of justifications", "why_tests_cant": "A test compares a few messages; that not one pixel of the text is drawn differently after the move concerns all texts and all places.", "anchors": ["src/dms/render.rs:render_text_spans", "src/dms/render.rs:span_x", "src/dms/render.rs:offset_horiz", "src/dms/render.rs:span_y", "src/dms/render.rs:baseline", "src/dms/render.rs:offset_vert"]}
{"id": "C121", "title": "a pattern filled with other lines changes only those lines", "statement": "When a pattern is filled twice, with two lists of lines without tags, the two messages have the same values one by one, but for the lines, which are replaced one by one.  When both are shown, they have the same pages with the same durations, and these differ only in the rows of spans with another text, and only inside of the text rectangles that got other lines.", "quantifier": "all valid signs that support [np], all patterns without font tags between two texts of the same area, all pairs of lists of lines (each line without brackets, and empty in both lists or in neither)", "why_tests_cant": "A test fills a pattern with a few lines; that other lines cannot have an effect on any other part of the message concerns all patterns and all lines.", "anchors": ["src/dms/pattern.rs:MessagePattern::fill", "src/dms/pattern.rs:PatIter::next", "src/dms/render.rs:render_text_spans"]}
{"id": "C122", "title": "drawings that paint the same are shown the same", "statement": "Color rectangles and graphics that follow one another in a message can be replaced by any others that the sign can draw and that paint every pixel the same (or leave it alike): the pages are the same, also their texts and the drawings after them.  Color rectangles of one color paint the same if together they have the same pixels, for example a rectangle and its two halves.  A graphic with more than one bit per pixel paints the same as one color rectangle of a single pixel for each of its pixels which is not transparent, in any order.", "quantifier": "all valid signs, all messages, all lists of drawings, all graphics of 8-bit, classic and 24-bit type at all places on the sign", "why_tests_cant": "A test compares a few messages; that two ways to draw the same picture are not told apart by anything else in the renderer concerns all messages around them.", "anchors": ["src/dms/render.rs:render_graphics", "src/dms/render.rs:render_rect", "src/dms/graphic.rs:Graphic::render_graphic"]}
{"id": "C123", "title": "only the characters of a font that a message uses matter", "statement": "Two signs which differ in their fonts only give the same pages, errors and panics for a message, if they have fonts under the same of the numbers the message uses, and these fonts have the same height and spacings and the same characters for the code points in the texts and character tags of the message: other characters, the order of characters and the names of fonts do not matter.  So fonts can be cut down to the characters of a message.  Version IDs of fonts in tags must be right or wrong for both fonts, and the message has no NUL character.  Widths, filling and lines of patterns depend on heights and line spacings of the fonts only.", "quantifier": "all signs with unique numbers of fonts and characters, all messages without NUL characters, all fonts alike in this way, all patterns and lines", "why_tests_cant": "A test uses one font; that no place of the renderer looks at a character which is not in the text (a space for its width, the first character for the size) is about all fonts and messages.", "anchors": ["src/dms/font/mod.rs:Font::character", "src/dms/font/mod.rs:Font::text_width", "src/dms/font/mod.rs:Font::render_text", "src/dms/render.rs:render_text_spans", "src/dms/render.rs:offset_horiz", "src/dms/render.rs:offset_vert", "src/dms/pattern.rs:MessagePattern::widths", "src/dms/pattern.rs:MessagePattern::fill", "src/dms/pattern.rs:MessagePattern::lines"]}
{"id": "C124", "title": "another text moves only the texts of its line on one side", "statement": "When texts of a message are replaced by any other texts, and both messages are shown, then their pages have the same sizes and times, and differ only in pixels which are lit, in one of them, by a text that is another one, or that is moved by another text of its line: a text at the left only by texts before it, a text at the right only by texts after it, a text in the center by all texts of the line with its justification.  So the line does not change to the left of another text at the left, and not to the right of another text at the right.", "quantifier": "all signs with valid fonts and graphics, all pairs of shown messages with the same tags, all pixels of all pages", "why_tests_cant": "A test compares a few texts; that a text keeps its place whatever the texts on its other side are concerns all texts, fonts and spacings.", "anchors": ["src/dms/render.rs:offset_horiz", "src/dms/render.rs:span_x", "src/dms/render.rs:render_text_spans"]}
{"id": "C125", "title": "a sign is built from what its builder was told last", "statement": "A sign that is built has, of each kind of settings (sign, VMS, fonts, MULTI, graphics), the ones its builder was told last, or else the default ones; settings of other kinds and earlier ones have no effect on whether it can be built and on the sign.  The default settings alone make a sign, for all sizes of its tables, which is filled by its character cells; without fonts, it shows no message with text or a character tag, and without graphics none with a graphic.  The name of a color scheme gives this scheme, and any other name gives the scheme of one bit.", "quantifier": "all sequences of calls of the builder, all table sizes, all messages, all names", "why_tests_cant": "A test builds signs with a few sequences of calls; that no call disturbs the settings of another one, in any order and number, concerns all sequences.", "anchors": ["src/dms/sign.rs:DmsBuilder", "src/dms/sign.rs:DmsBuilder::build", "src/dms/config.rs:SignCfg::default", "src/dms/config.rs:VmsCfg::default", "src/dms/config.rs:MultiCfg::default", "src/dms/multi.rs:ColorScheme::from"]}
{"id": "C126", "title": "a new line is like a text rectangle which begins at that line", "statement": "Take a message which ends with text at the top of its last text rectangle, in order, and one of its new lines.  When this [nl] tag is replaced with a text rectangle at the same left, with the same width, and lower by the heights of the lines before and the spaces below them, and both messages are shown, then they are shown with the same pages: every pixel and the times are the same.  Only the size of the blank page of the last page's off time, if there is one, may be another.", "quantifier": "all signs with valid fonts and graphics, all messages with any pages, graphics and text rectangles before, all texts and styles on the lines", "why_tests_cant": "A test compares two messages; that two ways to write the same layout agree on every pixel, for all fonts, line spacings and numbers of lines, is a law between the layout of lines and that of text rectangles.", "anchors": ["src/dms/render.rs:Pages::render_text_rectangle", "src/dms/render.rs:Pages::span_y", "src/dms/render.rs:Pages::span_x", "src/dms/render.rs:Pages::update_text_rectangle"]}
{"id": "C127", "title": "text put before text at the bottom, or at the right, does not move it", "statement": "Take a message which ends with text at the bottom of its last text rectangle, in order.  When lines are put before this text, which end with the style they began with, and both messages are shown, then they are shown with the same pages, except for the last one; it has the same size and time, and its pixels are the same, except for pixels which are lit by the texts of the new lines, and are above all texts which were there before.  The same holds for one line of text at the right, in one font, when text is put before it on this line: changed pixels are lit by the new texts, and are to the left of all texts which were there before.", "quantifier": "all signs with valid fonts and graphics, all messages with any pages, graphics and text rectangles before, all new lines and texts", "why_tests_cant": "A test compares the pages of two messages; that text anchored at the bottom or at the right keeps all its pixels, for all fonts, spacings, numbers of lines and new texts, is a law about pairs of messages.", "anchors": ["src/dms/render.rs:Pages::render_text_rectangle", "src/dms/render.rs:Pages::span_y", "src/dms/render.rs:Pages::span_x", "src/dms/render.rs:Pages::offset_vert", "src/dms/render.rs:Pages::offset_horiz"]}
{"id": "C128", "title": "text stays where it is when only other edges of its text rectangle are moved", "statement": "Take a message with a text rectangle anywhere, and another rectangle of which the edges are the same at which the texts of the rectangle are placed: for texts at the left the left edge, at the right the right one, at the top the upper one, at the bottom the lower one, and for texts in the center or middle both.  When the text rectangle is replaced with the other one, and both messages are shown, then they are shown with the same pages.  Only the size of the blank page of an off time may be another.", "quantifier": "all signs with valid fonts and graphics, all messages with a text rectangle on any page, with anything before and after it, all other rectangles", "why_tests_cant": "A test compares two messages; that no pixel of any text, graphic or other text rectangle depends on the other edges of a rectangle is a law about all pairs of messages.", "anchors": ["src/dms/render.rs:Pages::render_text_rectangle", "src/dms/render.rs:Pages::span_y", "src/dms/render.rs:Pages::span_x", "src/dms/render.rs:Pages::baseline_top", "src/dms/multi.rs:Rectangle::extend_width_height"]}
{"id": "C129", "title": "a message that is shown is also shown with larger text rectangles", "statement": "When text rectangles of a message that is shown are replaced with valid ones which are as wide and as high or more, anywhere on the sign (on a sign with character cells not beginning above the old ones), then the message is shown, too, with as many pages, of the same times, and (but for blank pages of off times) of the same sizes.  When one text rectangle is made larger, and the edges which its texts are justified to stay where they are, the pages are the same.", "quantifier": "all valid signs, all messages of a length which the sign can measure, all text rectangles", "why_tests_cant": "That no check of widths, heights, tags, conflicts or colors refuses a message because of more room is a law about all pairs of messages, with any number of rectangles.", "anchors": ["src/dms/render.rs:Pages::render_text_rectangle", "src/dms/render.rs:Pages::span_y", "src/dms/render.rs:Pages::span_x", "src/dms/render.rs:Pages::baseline_top", "src/dms/multi.rs:Rectangle::extend_width_height", "src/dms/render.rs:Pages::check_unsupported"]}
{"id": "C130", "title": "a message can be normalized while it is written", "statement": "When a tag and anything more is put behind a message, the normalized message only gets longer: what was normalized before is the beginning of it, and it is longer exactly if something visible was put behind the message.  When the message ends with something visible, and has no [hc] of two or more digits, then normalizing the whole gives the same as normalizing the normalized message with the rest put behind it.", "quantifier": "all messages (which do not end with a single bracket), all strings which begin with a tag put behind them", "why_tests_cant": "Both are laws about all pairs of strings; a state of normalize (color, font, justification, withheld tags) that does not agree with its output shows only for special rests.", "anchors": ["src/dms/multi.rs:normalize"]}
{"id": "C131", "title": "a message that is shown is also shown with smaller spacings", "statement": "When the numbers of [sc] and [nl] tags of a message that is shown are replaced with smaller ones, the message is shown, too, with as many pages, of the same sizes and times.", "quantifier": "all valid signs, all messages of a length which the sign can measure, with any number of these tags", "why_tests_cant": "That less space between characters and lines never leads to an error or panic, whatever fonts, cells, justifications and rectangles there are, is a law about all pairs of messages.", "anchors": ["src/dms/render.rs:Pages::offset_horiz", "src/dms/render.rs:Pages::offset_vert", "src/dms/render.rs:Pages::check_unsupported", "src/dms/render.rs:Span::char_spacing_between"]}
{"id": "C132", "title": "drawings change only the pixels that they paint", "statement": "When color rectangles and graphics which follow one another in a message that is shown are replaced with any others that the sign can draw, or left out, the message is shown, too.  All other pages are the same, and the page with the drawings has the same size and time; only such pixels of it can have another color which one of the drawings, old or new, paints.  No text is moved, or gets another style.", "quantifier": "all valid signs, all messages of a length which the sign can measure, all drawings in any number", "why_tests_cant": "That a drawing has no effect elsewhere (on texts after it, on later text rectangles, on other pages, on errors) concerns all messages around it and all drawings.", "anchors": ["src/dms/render.rs:Pages::render_graphics", "src/dms/render.rs:Pages::graphic", "src/dms/render.rs:render_rect", "src/dms/graphic.rs:Graphic::render_graphic"]}
{"id": "C133", "title": "a text rectangle changes only its own pixels", "statement": "When a text rectangle is left out of a message that is shown, with all that is in it, and it sets nothing for what follows (font, colors, justification, spacing, times), then the message is shown, too.  All other pages are the same.  Its own page has the same size and time, and only such pixels of it can have another color which are inside of the text rectangle, or which one of its drawings paints.  If it was the last text rectangle of its page, then the blank page of the off time can have another size; else that is the same, too.", "quantifier": "all valid signs whose font heights are multiples of the height of a character cell (or with no cells), all messages of a length which the sign can measure, all text rectangles with any texts, drawings and attributes in it", "why_tests_cant": "That the text of a rectangle never reaches pixels outside of it, and has no effect on the rest of the message, concerns all rectangles, texts, styles and signs.", "anchors": ["src/dms/render.rs:Pages::render_text_rectangle", "src/dms/render.rs:Pages::render_text_spans", "src/dms/render.rs:Pages::render_graphics", "src/dms/render.rs:Pages::render_on_page", "src/dms/render.rs:Pages::render_off_page"]}
{"id": "C134", "title": "a message that is shown is also shown with smaller fonts", "statement": "When the fonts of a sign are replaced with fonts of the same numbers which have the same characters (or more), none of them wider, and whose height and spacings are not larger, then every message that was shown is shown, with as many pages of the same sizes and times.  In particular the spacings of fonts can be made smaller.  Version IDs told in the message must be those of the new fonts.", "quantifier": "all valid signs, all font tables with smaller fonts whose heights are multiples of the height of a character cell (or with no cells), all messages of a length which the signs can measure", "why_tests_cant": "Widths and heights are sums, averages and maxima over the texts, lines and fonts of a message, with rounding; that no such sum grows when its parts shrink concerns all messages and all pairs of fonts.", "anchors": ["src/dms/render.rs:Span::width", "src/dms/render.rs:Span::char_spacing_between", "src/dms/render.rs:Pages::offset_horiz", "src/dms/render.rs:Pages::offset_vert", "src/dms/font/mod.rs:Font::text_width"]}
{"id": "C135", "title": "colors of text do not move anything", "statement": "When colors of text ([cf] tags) of a message are replaced with other colors that the sign has, a message that is shown is still shown: with as many pages, of the same sizes and times, and each pixel that differs shows a color of text (told by a [cf] tag, or that of the sign) before and after, or (on signs without 24-bit colors) is in the box of a graphic with one bit for each pixel, which is drawn in the color of text.  Whether a message is shown does not depend on which of the colors of the sign its text has.", "quantifier": "all valid signs, all pairs of messages (of a length which the sign can measure) which differ only in the colors of [cf] tags", "why_tests_cant": "That widths, positions, line heights, page times, backgrounds and refusals never depend on the color of text concerns all messages, fonts and pairs of colors; a test compares some pictures.", "anchors": ["src/dms/render.rs:Pages::render_text_rectangle", "src/dms/render.rs:Pages::render_text_spans", "src/dms/render.rs:Pages::render_graphics", "src/dms/multi.rs:ColorCtx::set_foreground"]}
{"id": "C136", "title": "replacing colors of a message only recolors its pixels", "statement": "When colors of a message ([cf], [cb], [pb] and [cr] tags) are replaced with other colors that the sign has, a message that is shown is still shown: with as many pages, of the same sizes and times, and each pixel that differs shows a replaced color before and the color that replaces it after.  In particular, on signs with 24-bit colors, if a color a is replaced with b, each pixel that differs shows a before and b after.  Whether a message is shown does not depend on which of the colors of the sign it has.", "quantifier": "all valid signs, all pairs of messages (of a length which the sign can measure) which differ only in colors of tags, all relations between old and new colors; without 24-bit colors, all pixels off graphics of one bit", "why_tests_cant": "That the picture of a message commutes with a change of its colors concerns all messages, drawings that hide each other, and all palettes; a test compares some pictures.", "anchors": ["src/dms/render.rs:Pages::render_graphics", "src/dms/render.rs:Pages::render_text_spans", "src/dms/render.rs:Pages::page_state", "src/dms/multi.rs:ColorCtx"]}
{"id": "C137", "title": "blanks at the free ends of lines are not seen", "statement": "Of two messages with the same tags and any other texts, a pixel differs only where it is lit by a text that is moved by another text of its line, or that is another one itself and does not differ only by blank characters after text at the left or before text at the right.  In particular, on signs with text at the left, blank characters at the ends of lines can be left out of every message without tags of justification that is shown: it is shown with the very same pages.  On signs with text at the right, the same holds of blank characters at the beginnings of lines.", "quantifier": "all valid signs whose characters have a width, all pairs of shown messages with the same tags (with any texts); for the second part all messages without [jl] and [jp] tags and any number of blanks at the ends (or beginnings) of lines, pages and text rectangles", "why_tests_cant": "That trailing blanks do not matter concerns every message, font, character spacing and text rectangle; a test compares some pictures.", "anchors": ["src/dms/render.rs:Pages::render_text_spans", "src/dms/render.rs:Span", "src/dms/render.rs:Pages::span_x_left", "src/dms/render.rs:Pages::span_x_right"]}
{"id": "C138", "title": "another text pushes the texts of its line by the difference of the widths", "statement": "Two messages have the same values, but for one text on the last line (the only line of the last page or text rectangle), and are both shown.  Then the last pages are composed, over the same background, of three parts from left to right: the texts before it, the text, and the texts after it.  The first and the last part are the same in both pages; each part begins exactly where the one before ends (with the gap of the character spacing), and the line begins where its justification puts a line of its width.  In particular at the left nothing before the text changes and everything after it is moved by the difference of the widths; at the right nothing after the text changes and everything before it is moved.", "quantifier": "all valid signs, all shown messages, any texts, fonts, colors and spacings before and after the changed text on its line; left, right and center justification (center on signs without character cells)", "why_tests_cant": "A change of one word must keep every other pixel of the line up to one shift, for every pair of words, font and spacing; a test sees some pairs.", "anchors": ["src/dms/render.rs:Pages::render_text_spans", "src/dms/render.rs:Pages::span_x_left", "src/dms/render.rs:Pages::span_x_right", "src/dms/render.rs:Pages::span_x_center", "src/dms/render.rs:Pages::offset_horiz"]}
{"id": "C139", "title": "the spacing of a new line moves the lines below it by the difference", "statement": "Two messages have the same values, but for the spacing s of one [nls] tag on the last page (or text rectangle), and are both shown on a full matrix sign.  Then the last pages are composed, over the same background, of two blocks: the lines above the tag and the lines below it.  Both blocks look the same in both pages, and exactly s rows are between them (if the tag does not tell the spacing: the mean of the line spacings of the fonts of the lines above and below, rounded up).  Messages with the same number of rows between are shown the same, so a spacing that is not told can be told.  The height of the text changes by the difference of the spacings, and the text stands where the page justification puts text of its height.  In particular, at the top nothing above the tag changes, nothing is drawn between the blocks, and everything below is moved down by the difference; at the bottom nothing below the tag changes and everything above is moved up.", "quantifier": "all valid signs without character cells, all shown messages with one page justification on the text (top, middle or bottom) and tags in order, any number of lines above and below, any fonts, colors, spacings", "why_tests_cant": "A change of one spacing must keep every other pixel up to one shift, whatever lines, fonts and other spacings are above and below; a test sees some pairs.", "anchors": ["src/dms/render.rs:Pages::offset_vert", "src/dms/render.rs:Pages::baseline", "src/dms/render.rs:TextLine::line_spacing", "src/dms/render.rs:Span::line_spacing", "src/dms/render.rs:TextLine::combine", "src/dms/render.rs:Pages::render_text_spans"]}
{"id": "C140", "title": "a sign with 24-bit colors shows what a sign with classic colors shows", "statement": "A sign with the ten classic colors and a sign with 24-bit colors are alike otherwise, default colors included.  Every message that the former shows without error is shown by the latter with exactly the same pages (every pixel, every time, ON and OFF alike), unless it shows graphics of one bit for each pixel (which signs with classic colors do not draw in default colors); with such graphics, pages have the same sizes and times still, and each pixel is the same or has a default color on the sign with 24-bit colors.  Messages that give colors by number only have the same results on both signs throughout: the same pages, the same errors at the same place, and the same panics.", "quantifier": "all pairs of such signs with any fonts, graphics, sizes and defaults; all messages (for shown messages: the signs are valid and the message has at most 255 characters)", "why_tests_cant": "The two color schemes take different paths for every color that is set or drawn; that none of them makes a difference for any message is a statement about all of them at once.", "anchors": ["src/dms/multi.rs:ColorCtx::rgb", "src/dms/multi.rs:ColorCtx::set_foreground", "src/dms/multi.rs:ColorCtx::set_background", "src/dms/multi.rs:ColorCtx::foreground_rgb", "src/dms/render.rs:Pages::render_graphics", "src/dms/graphic.rs:Graphic::pixel_fn"]}
{"id": "C141", "title": "color schemes decide about colors only", "statement": "Two signs differ in nothing but colors (color scheme, default colors, colors of the LEDs).  For a message whose colors both signs have, they give the same errors, and as many pages of the same sizes and times; each pixel has the default foreground color of its sign on both, or the default background color on both, or what its sign shows for the same color, provided that graphics of one bit are used only if both signs or none have 24-bit colors, graphics of one byte for each pixel only with colors that both signs have or none, and graphics of 24 bits only if both signs have 24-bit colors; with graphics of 24 bits on other signs, pixels may also have the very same color on both.  A message that one sign shows without error is shown by the other exactly if the other has all colors of the message.  So every message for a monochrome sign of one bit is shown by signs of all color schemes, and every message for a sign with classic colors by all others but those; there are no other inclusions: for each other pair of color schemes the first sign, if it is valid and supports [cf] tags, shows a message that the second does not.", "quantifier": "all pairs of such signs with any of the four color schemes, any fonts, graphics and sizes, all messages (for shown messages: the signs are valid and the message has at most 255 characters)", "why_tests_cant": "There are sixteen pairs of color schemes, and any state of the renderer may depend on the scheme; that it only decides which colors exist concerns all messages and signs.", "anchors": ["src/dms/multi.rs:ColorCtx::rgb", "src/dms/multi.rs:ColorCtx::set_foreground", "src/dms/multi.rs:ColorCtx::set_background", "src/dms/multi.rs:ColorScheme", "src/dms/render.rs:Pages::render_graphics", "src/dms/graphic.rs:Graphic::render_graphic"]}
