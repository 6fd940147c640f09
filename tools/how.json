{
 "C01": "`slices` models repeated `next_slice`; strong induction on string length.",
 "C02": "token-shape predicate in Spec; induction along `slices`.",
 "C03": "slicing by byte index is modelled with an explicit panic outcome; exact characterisation of the panicking tags, absence of panic for all other strings; the full claim is FALSE of the code (witness theorem).",
 "C04": "case analysis on `parseTag`, with integer types of the code.",
 "C05": "every sub-parser is shown invariant under re-casing.",
 "C06": "show/parse inverse lemmas for decimal and hex, per constructor; FALSE for [hc] (witness).",
 "C07": "re-tokenisation theorem for concatenated canonical tokens, then induction with the normalize state as invariant; FALSE when an [hc] tag is present (witness). Exact condition by injectivity of the canonical text of a value.",
 "C08": "same re-tokenisation theorem. Exact condition.",
 "C09": "induction over values; trailing part is white space.",
 "C10": "invariant over the fold state; independent spec on output values.",
 "C11": "same fold invariant.",
 "C12": "unfold to a spec predicate on items.",
 "C13": "re-tokenisation of escaped text, induction on text.",
 "C14": "re-tokenisation of mixed sequences.",
 "C15": "arithmetic (omega); endpoint claim FALSE when background > foreground (witness).",
 "C16": "case analysis against a separate spec table (Spec/Values.lean `ColorOk`); lifted to the renderer through every loop that sees colors (Lemmas/PageColor.lean).",
 "C17": "finite table, complete `decide`.",
 "C18": "two build profiles (checked/wrapping arithmetic); FALSE on overflow (witnesses).",
 "C19": "direct iff.",
 "C20": "iff against a spec with `Nodup`; panic on duplicate surrogate numbers (witness).",
 "C21": "iff against a spec.",
 "C22": "from C20/C21 and `retain`.",
 "C23": "retain is the identity on fitting tables.",
 "C24": "refinement of the table to a partial map, induction over insertion sequences.",
 "C25": "f32 as rationals rounded at each operation (Model/F32.lean); rounding is shown monotone and with relative error 2^-24; bounds on position from error propagation.",
 "C26": "maximality by induction on the loop; divergence witness for a zero-height font 0.",
 "C27": "induction on text.",
 "C28": "invariant over the byte/bit loop; two-sided pixel characterisation.",
 "C29": "FALSE with unused slots (witness); true for full tables. Exact condition.",
 "C30": "equality of the serialisation.",
 "C31": "CRC step is a bijection of the 16-bit register; injectivity of two-byte feed.",
 "C32": "a decoder is written and proved to invert the encoder.",
 "C33": "decoder/encoder inverse.",
 "C34": "over the tfon property sequence (the external crate's text layer is assumed to be lossless). Exact condition.",
 "C35": "FALSE: panics with more glyphs than the table (witness); exact condition proved. Exact condition by induction with the used slots as invariant.",
 "C36": "index bounds from validity; per pixel characterisation against a spec decoder. Exact description for all four graphic types.",
 "C37": "loop invariant over pixels.",
 "C38": "FALSE for every scheme but 24-bit (theorem); TRUE for 24-bit.",
 "C39": "ON pages proved; OFF pages FALSE after a smaller [tr] (witness). Exact sizes: the text rectangle after a page is that of its last [tr].",
 "C40": "the expected sequence of pages is computed by `Spec.schedule` from the parsed values; induction over the steps of the iterator.",
 "C41": "induction over pages.",
 "C42": "induction over items of a page.",
 "C43": "the boxes of all texts are followed through offset_horiz/offset_vert; text rectangles are inside of the sign by an invariant of the iterator (Lemmas/States.lean); glyphs by C28.",
 "C44": "every panic of the code is an outcome of the model; an invariant on the state (Lemmas/Safe.lean, Fit.lean) excludes each of them under the hypotheses; a witness for each hypothesis.",
 "C45": "widths of lines and heights of blocks are specified as sums (Spec/Layout.lean); both directions of the comparison.",
 "C46": "closed forms of the offsets.",
 "C47": "adjacent-pair characterisation of check_justification, lifted to all pairs where the order is transitive.",
 "C48": "iff against `TextRect` (inside of the sign, edges at character cells).",
 "C49": "per-pixel characterisation.",
 "C50": "finite without errors: each ON page consumes items; FALSE after an error of check_unsupported (witness: the error repeats forever). Dichotomy for all messages: the rest of the message shrinks, or the state does not change any more.",
 "C51": "loop counter induction.",
 "C52": "colour invariant of the raster.",
 "C53": "projection equations of the page step.",
 "C54": "`lines` and `widths` are shown to walk the same areas; counting invariant.",
 "C55": "induction over pattern iteration against a spec that cuts the pattern into areas (Spec/Pattern.lean).",
 "C56": "`fill` is shown to give a concatenation of canonical tokens, which are read back one by one (re-tokenisation), area by area.",
 "C57": "same: what is written for each area.",
 "C58": "same; an invalid item makes `fill` give the empty string.",
 "C59": "exact output of `fill` as a function of the areas and lines.",
 "C60": "FALSE (theorem: fill always returns the empty string on such signs).",
 "C61": "case analysis of normalize for one item; FALSE for single characters (witness).",
 "C62": "places of texts as sums of widths before them on the line (`AtX`, Spec/Place.lean); the code's positions are shown to be these; disjointness by arithmetic.",
 "C63": "same for lines (`AtY`).",
 "C64": "the texts of a section are a function of its values (`pieces`, Spec/Section.lean), independent of the renderer's loop; drawing is shown to change exactly the pixels of the glyphs, once each.",
 "C65": "induction over the items of a page; FontOf and GraphicOf are specified with version IDs.",
 "C66": "a page as layers: `Composed` (Spec/Compose.lean) for the text rectangles of a page (`sections`), `Layered` for graphics and rectangles, `TextDrawn` for texts; induction over the loop of render_on_page.",
 "C67": "`PageOk` (Spec/Accept.lean) says what a sign can show, from values, tables and sums of widths and heights only; soundness and completeness of each loop; induction over pages for messages.",
 "C68": "`Covers` says when a pixel is in a rectangle; 16 bit arithmetic is shown not to wrap when the edges fit, the rest is linear arithmetic.",
 "C69": "`Takes` is repeated `next_slice` on the iterator with byte offsets; each step is shown equal to that of the character based model, with the offset the number of bytes of the prefix; induction over items.",
 "C70": "`fontIn` (Props/FontFile.lean) is the font a file describes, by filters and one scan for code points; the loop is shown equal to it from any state by induction over the properties.",
 "C71": "Simulation (Lemmas/Drops.lean): `Drops` relates item lists of which wrong items and repeated tags are removed; each loop of the renderer gives the same result on both, as the tracked last tags agree with the state of the renderer. Refuted in general by comparing all pixels for five messages. For C71_tidy_partial, the normalized message is a rewriting in the sense of C81 (`dedup_rewrites`).",
 "C72": "From pages to text rectangles and back (Lemmas/Walk.lean), induction over the areas of the pattern: the values of the filled message are those of the pattern with texts and [nl] in the fillable areas (Lemmas/Shown.lean: these fit by C26 and C27), then C67 in both directions. Refuted in general by four patterns.",
 "C73": "bytes of the file modelled (Model/Bmp.lean); reader written from the file format (Spec/Bmp.lean); concatenation of blocks of equal length; the size of the file FALSE when rows are filled up (exact condition and witness).",
 "C74": "Two runs side by side (Lemmas/Local.lean): each function of the renderer gives the same for both signs when the tables agree on a set of numbers and the supported tags on a set of tags, and the state only holds members of these sets; invariant over all pages. Which entry a number finds is taken from C24, so the order does not matter. Patterns alike, over their items. C74_more_tags uses C42: in a message without error all tags are supported.",
 "C75": "Two runs side by side (Lemmas/Larger.lean): after each step the rectangle of the larger sign contains or equals that of the smaller one, spans and colors are the same; every check that succeeds on the smaller sign succeeds on the larger one.",
 "C76": "Two runs side by side (Lemmas/Recolor.lean): a relation between color contexts is kept by all tags, everything else in the state is equal, and every drawing function keeps the relation between pixels. Instantiated twice: constant contexts for messages without colors (any schemes), equal or both default colors for signs of one scheme.",
 "C77": "Two runs side by side (Lemmas/Move.lean): the messages have the same values but for positions. Offsets within a rectangle do not depend on its corner; rounding to character cells commutes with moving because corners are at cell edges. Text, color rectangles and graphics paint exactly known pixels (C64, C49, C37), so the pages stay moved copies of each other.",
 "C78": "Two runs side by side over messages whose items parse to the same values (Lemmas/Denote.lean): each loop of the renderer looks at an item only through its value. C78_spelling puts a tag between any two strings by cutting the message there; C78_case adds the case folding of C05.",
 "C79": "Two simulations (Lemmas/Append.lean): a run over a message and over the message with more behind a page break agree until the first one is done; and two states at the start of a page that differ only in what is reset there show the same from then on. C53 tells the attributes at the page break.",
 "C80": "C66 gives each ON page as a composition of graphics and texts; values that are not visible paint nothing (`graphicsOn_blank`, `textDrawn_blank`); then induction over the pages as for C40.",
 "C81": "`lookOf` and `Depicts` (Spec/Look.lean) define look and picture without the renderer.  Induction over the pages with C62, C63, C66 (Lemmas/Depict.lean); joining of texts is shown sound for widths, positions and pixels (Lemmas/Join.lean, Lemmas/Look.lean); rewriting keeps the look (Lemmas/Rewrite.lean).",
 "C82": "Model/Release.lean has the functions of the renderer with wrapping arithmetic and without debug_assert!; Lemmas/Release.lean shows for each of them that it refines the checked one (`RLe`, `OLe`).",
 "C83": "Spec/Fault.lean defines, for each error, the fault of a page, with the specifications of values, layouts and text rectangles of C67.  Lemmas/Fault.lean inverts each function of the renderer at its error results.",
 "C84": "Spec/Grammar.lean has one rule for each form of a tag, with relations for digits, numbers, colors, points and rectangles; Lemmas/Grammar.lean shows for each parser that it decides its relation; `tagIs_body` and `body_tagIs` are the two directions for the tags.",
 "C85": "Spec: a pixel is lit if it is lit in the character of its cell (LitInCell, by division of the coordinates).  Lemmas/Cells.lean: edges of texts are multiples of the cell size, from the invariant that text rectangles are made of cells and that [sc] cannot add spacing; then the pixels of C64 are those of the cells.",
 "C86": "Spec: Asked, from the values of the items by the grammar of C84 (HasValue, ColorTag), colorValue and the pixels of graphics.  From C66_page by induction on the layers, the text and the sections of a page; OFF pages by C53_carry.",
 "C87": "Spec: faults as inductive predicates (FontFault, GraphicFault, BuildFault), with the first bad entry and the first entry used again told by splitting the list; iff by induction on the tables.",
 "C88": "C72 gives one direction. For the other, the values of the filled message are found by induction over the areas as for C72, C67 gives that the texts of each text rectangle fit, and a line of an area with one text is as wide as Font::text_width says (C27).",
 "C89": "Messages of k [np] tags are shown by C67 and have k+1 pages by C41; for signs without [np] tags by C42 and C41.",
 "C90": "Each pass is a list of checks (Spec/First); that the passes give the error of the first check that fails is by induction on the loops (Lemmas/First), from C84 for items. Lines that are not numbered without gaps are renumbered as the renderer counts them (`counted`, Spec/Counted), so that their height (`totalHeight`) is exact for every page.",
 "C91": "`Composed` (C66) with the exact places of texts: `numbers` and `counted` lines as functions of the values (Spec/Drawn, Spec/Counted). Uniqueness by induction over the text rectangles: graphics by unique numbers, texts by the keys their places depend on (Lemmas/Picture).",
 "C92": "Spec/Account: `Pictured` (recursion over `splitPages` with `Composed` of C91) and `FirstFaulty` (recursion over pages with `FirstFault` of C90); the course of the iterator by strong induction over the remaining items.",
 "C93": "Spec/Stop: the list of checks of C90, each of which gives an error or a panic, in the order of the code; Lemmas/Stop: the verdict of each function on its checks; the sizes of C44 exclude all other panics.",
 "C94": "Spec/After: the checks of C90 paired with what follows each of them (Resume), and Given built from them; Lemmas/After: the state each function leaves behind after an error; Props/After: induction over the calls.",
 "C95": "From C94, with the checks of each page reduced to those of its texts. The widened version uses that an error with the next page after it is found at the end of the last text rectangle.",
 "C96": "Spec/Narrow: narrower texts; Lemmas/Narrow: the checks of C93 that stay silent; from C93 both messages are told by their checks, and their pages by C92.",
 "C97": "Spec/Wording: pixels that may differ; Lemmas/Wording: places of texts without change on their line are the same; the pages are told by C92.",
 "C98": "Spec/Room: room and boxes; the places of texts are those of C62 and C63, the page is that of C66, what is after the text rectangle does not change pixels that are not covered.",
 "C99": "Lemmas/Quiet: a message is shown exactly if no check of its pages gives an error, then C92 tells the pages; both are told from the values of the page and the attributes before it; state tags before the values give just these attributes.",
 "C100": "From the form of C93 for values (Lemmas/Quiet), as C99: checks and pages of both parts depend on the state tags before only through the attributes, which are those of the sign again.",
 "C101": "From the form of C93 for values (Lemmas/Quiet): the checks of the small sign imply those of the large one, as all rectangles and graphics have explicit places; then both pictures are compared section by section (layered_inset, textDrawn_reworded).",
 "C102": "From the form of C93 for values (Lemmas/Quiet), as C99: attributes and times after each value are the same when the value left open is written; checks and pictures depend on the defaults only through them.",
 "C103": "From the form of C93 for values (Lemmas/Quiet): pieces of text, lines, colors at each graphic and the checks are the same for two messages whose settings agree behind the tags (relation Swap on values, sections and pages).",
 "C104": "Induction on the pages given (Steps) with the bound of C50; C73 for each image; C93 for the end.",
 "C105": "Induction on the table; C70_name for files.",
 "C106": "One exchange keeps the attributes, pieces and layers of each text rectangle; then the exact conditions of C93 at both ends.",
 "C107": "What to_raster gives (C36) in the file written (C73); the program has no input, its file is evaluated by the kernel.",
 "C108": "Two runs side by side: the states differ only in colors that look alike and in version IDs that are right (`Like`), which the layout does not see (`plain`).",
 "C109": "Two runs side by side, whose states differ in the items to come only; the message within 16 bits is made by putting [tr65534,1,1,1] (which is not longer, by the grammar of C84) in place of rectangles beyond 16 bits.",
 "C110": "By the exact account of shown messages (Pictured), from list to pages to text rectangles: a drawing has no effect on texts and attributes, and its layer is below that of a later drawing at each of its pixels.",
 "C111": "The two pictures light the same pixels, as all text colors differ from the background.  Texts of the same widths are at the same places, in boxes apart from each other (C98), so each text lights the same pixels in both, and so does each character.",
 "C112": "A relation between the states of the two iterators (fonts of spans and states renumbered, rasters equal), kept by every function of the iterator.",
 "C113": "The pages as told by C92; the texts of the longer message are those of the shorter one, in the same order, then the added ones.  The added ones are on other lines (or have another page justification), so the widths of the old lines are the same, and so are the heights of the lines above (C62, C63).",
 "C114": "By C93 a message is shown exactly if the sign has its tags, and no check of a page stops; the pages are those of C92.  None of these looks at a [pt] tag: text pieces, line numbers, drawings, colors and checks of the values are the same when the tags are left out.",
 "C115": "By C93 and C92 a message is shown exactly if no check of a page stops, with the pages of C92.  The values of a text rectangle paint the same pixels whatever is painted before (Lemmas/Paint), all within the rectangle, so that the two paint different pixels; the checks of a rectangle look at the style before it only.",
 "C116": "As C115: the values paint the same pixels in the same colors the second time, whatever the raster is.  The count of text rectangles is the one check that tells the two messages apart.",
 "C117": "A page is composed of its text rectangles in order (C66, C92), the drawings of each before its texts.  The raster before the covering text rectangle has the size of the sign and has changed on the sign only; each of its pixels is painted again; from there on, the two messages do the same.",
 "C118": "Both messages give the same pages up to the last text rectangle (C113).  There, the layout of the longer message begins with the layout of the shorter one.  A text at the left is placed after the widths of the texts before it on its line, which are the same; added text with another line justification is no part of that sum.  The heights of lines are the largest heights of the fonts on them, which do not change, as the added texts have the font of the text before.",
 "C119": "The register of the CRC is updated bit by bit by a linear map, so the IDs are the same exactly if the changed bits alone leave the register 0 (changed_run).  The parity of the register counts the changed bits (x + 1 divides the polynomial).  Two bits are not seen exactly if the register comes back to 1 after their distance; the period is 32767, which is checked by computing the register after 32767, 4681, 1057 and 217 shifts (32767 = 7 * 31 * 151).  Sixteen bits in a row are in the register all at once.",
 "C120": "Spec/Justify: a raster with a picture over it at a place (Over), height and upper edge of the text.  The text without the last rectangle's text is drawn from the page of the message without it (shown_over, from shown_ended of C113, now for any relation of the two pages).  The texts of both messages are the same but for the justification (pieces_page, pieces_line), the widths and heights do not depend on it (rejust), so every text has the same distance from the upper (left) edge, and its pixels move with it (textColor_moved).",
 "C121": "Spec/Relined: the same value, or a line in place of the line with the same number.  The two filled patterns are both relations of the areas of the pattern and the lines (Filled, C55), so their values are put together in step (filled_relined); texts are not next to each other (Apart), so they are parsed one by one.  The pages are compared by C97.",
 "C122": "Spec/Repaint: drawings that paint alike (PaintAlike, from the layers of C66), color rectangles of the pixels of a graphic (PixelRects).  The two messages differ in drawings only (Rep), which no text, style, page time or background depends on (rep_text, rep_pieces, \u2026), and the layers of the pages are the same (rep_layered); the pages are given by shown_iff.",
 "C123": "Spec/Glyphs: characters a message uses (UsesChar) and fonts with the same characters (SameGlyphs).  Lemmas/Glyphs: simulation of the renderer with both font tables, the spans only have characters and fonts the message uses (rtrStep_glyphIn \u2026 run_alike).",
 "C124": "Spec/Places: texts with their numbers (numberedLayout), Moves, NewPlaces, BesideNew.  Lemmas/Places: the width before a text at the left depends on texts before it only (before_left), the width from a text at the right on depends on the others only (before_right), so places stay (exactX_unmoved); the pages are compared as for C97.",
 "C125": "Spec/Told: calls (Setting), what was told last (lastTold), the table of names.  The builder is the tuple of what was told last (told_eq, induction over the calls from the end); C22 gives the sign.  For C125_without the pictures of C92 and the fonts and graphics they need (composed_uses of C65).",
 "C126": "Spec/Stack: the place of the next line (AtNextLine), from the heights of lines of Spec/Layout.  The texts of the longer rectangle are those before (at their places as in C113) and those after, which are those of the new rectangle on lower lines (pieces_lowered); the height of n lines of the longer one is what is before plus the height of the lines of the new one (linesHeight_lowered), and widths do not depend on line numbers (exactX_lowered).",
 "C127": "Spec/Before: which pixels may change (LitAbove, LitLeft).  Above: the texts of the longer message are the new ones and those before on lower lines (pieces_lowered); the number of lines grows by those put before (dense_lowered), so the height of all lines and the height up to a line grow by the same (linesHeight_lowered), and the place from the bottom is the same.  Left: the place of a text from the right is the width of the texts after it (atX_right), and on a line of one font the height does not depend on the texts (atY_line).",
 "C128": "Spec/Resize: which edges are kept (SideKept, LevelKept).  The place of a text in a row (ExactX) and its height (ExactY) have the edges of its rectangle only in the place of the line and of the lines; both are the same with edges kept.  So the text of the section is drawn alike (textDrawn_resized), and sections and pages before and after it are alike (composed_amid, pictured_amid).",
 "C129": "The checks of a page (Spec/Stop, C93) are compared one by one: a text's line width and the height of its lines do not depend on the rectangle (lineWidth_moved, totalHeight_moved), the checks of values are the same, the new rectangle is valid by hypothesis, and the panic of text in the middle above the sign can not happen without character cells (countedHeight_own), or when the text is not higher up (cellEdge_mono).  Then C93 gives that the message is shown; C128 gives the same pages.",
 "C130": "The loop of normalize over both parts is the loop over the second part from the state after the first (normLoop_append).  Output and withheld tags of this state are known (foldl_step, foldl_step_trail); its attributes are those after the values, which are the same after removing tags told twice (after_dedup) and joining texts (after_mergeT), so reading the normalized message again ends in the same state.",
 "C131": "As for C96 and C129, the checks of a page (C93) are compared one by one: line widths (lineWidth_tighter) and heights of lines (linesHeight_tighter) are not larger with smaller spacings, also between texts of different fonts, where half of the sum counts; the checks of the tags are kept (on signs with character cells only 0 is valid); and with character cells the heights are the same (linesHeight_cells).",
 "C132": "The messages are compared value by value as for C122; a pixel which no drawing paints gets the same layers (rep_layered_off), and each later text rectangle and text changes pixels alike which were alike (composed_pixel, textDrawn_pixel), since the places of texts do not depend on drawings.  That the message is shown follows from the checks of C93: drawings which can be drawn give no error.",
 "C133": "The page is split at the text rectangle (sections_taken, composed_split): the pictures before it are equal, its drawings do not change a pixel which they do not paint, its text changes only pixels inside of it (the clause ChangesIn of TextDrawn), and all that comes after changes pixels alike which were alike (composed_pixel of C132).  That the message is shown follows from the checks of C93, as for C117_cut.",
 "C134": "The checks of C93 are compared on both signs: fonts and characters that were found are found (fontOf_smaller, defined_smaller), widths and heights are not larger (advance_smaller, gap_smaller, lineWidth_smaller, linesHeight_smaller), and no text is above the sign when fonts fit the cells (not_above); all other checks do not depend on fonts.",
 "C135": "Values of both messages are compared one by one (Retinted); the texts of both have the same pieces but for the color (pieces_tint), so checks agree (textStops_tighter, of which the spacings are equal), and the exact places of C91 agree since they do not depend on the color (exactX_untint, exactY_untint); pixels of texts are then compared in order (textPx_tint), and layers of drawings off graphics of one bit (layered_tint).",
 "C136": "Values of both messages are compared one by one (Dyed); checks of both agree (paint_tint, layout_tint, backgroundFault_tint, textStops_tighter), places do not depend on colors (exactX_untint), texts and layers are compared in order (textPx_tint, layered_tint), with colors of pages that have values on signs with 24-bit colors (HasValue).",
 "C137": "Blank characters light nothing (textLit_after, textLit_before), so texts with blanks at a free end light the same pixels (lightsAt_after, lightsAt_before), and texts on other sides of them do not move (exactX_right).  A text at the end of a line has the largest number on its line (padded_last), so it moves no other text; at the right, the first text of a line has the smallest number (started_first).",
 "C138": "The texts of one line are numbered in order (numbered_stays), so a text counts for the places of the texts after it only (before_restr), by its width (width_restr for the whole line), and gaps depend on fonts and spacings, not on texts (before_prev).  The parts are pictures of texts moved to their left edge (over_part), which are the same since the places are (textDrawn_push).",
 "C139": "A message with the other spacing has the same texts, but for the spacing of the texts on the line after the tag (pieces_respan), with the same numbers (numbers_respan).  So the heights of all lines below change by the difference (linesHeight_respace), those above do not, and places from left to right do not depend on it (exactX_respan).  The blocks are pictures of texts moved to their upper edge (over_rows), which are the same since the places are (textDrawn_leading).",
 "C140": "A relation between the color contexts of both signs (SisterCtx: alike but for the scheme, current colors are numbers or the default) is kept by every step (sister_sim), so that next_rel of C76 with equality of pixels gives the same results.  Shown messages have colors that the sign has (shown_colorOk of C136), thus no colors by parts.",
 "C141": "A relation between the color contexts of both signs (CrossCtx: the same current color that both have, or the default color of each) is kept by each step (cross_sim), also by graphics which may draw a pixel on one sign only (DrawnOver); the simulation of C76 gives the results.  Shown messages tell colors of the sign only (shown_hasColor)."
}