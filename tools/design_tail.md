## Disagreements between code and claims

What the proofs found.  Each item has a theorem with a concrete input; line numbers are in the theorem's file.

Panics
* `[flé]`, `[mvé]`: `parse_flash_time`/`parse_moving_text` slice one byte (C03).  The same panic in `normalize`,
  `text_spans`, `join_text`, rendering and patterns.
* `font.validate` on two characters with the same surrogate number (C20).
* Sign dimensions near 65535: overflow in `validate` (C18), in pixel positions (C25).
* `text_width` over 65535 (C27).
* `tfon::parse` with more glyphs than the table has room for (C35).
* `[tr60000,1,60000,1]` and `[cr...]` beyond 16 bits: overflow in `Rectangle` (C48, C49).
* Rendering: supported but unimplemented tags (`[f..]`, `[fl]`, `[ms..]`, `[mv..]`), default font 0 with text, more than 255
  lines or texts, rectangles beyond 16 bits (C44; one built sign and message for each).
* `widths` with 256 fillable pages: overflow of the `u8` number (C55).

Endless loops
* `rect_lines` with default font 0 of height 0 (C26).
* `Pages`: after `check_unsupported` fails, `next` gives the same error forever (C50).  A `for` loop that does not stop at
  the first error does not end.  Other errors are not repeated: after `TextTooBig`
  the next page follows, and after an unsupported justification the rest of the message is dropped (C50_after_error).

Wrong results
* `[hc]` is written in decimal and read in hexadecimal: `normalize` changes or loses such characters, patterns too
  (C06, C07, C08, C11, C56).
* `normalize` drops a whole text span with an invalid character, though its comment says the character (C61).
* 8-bit monochrome levels wrap when background is brighter than foreground (C15).
* Sign dimension check accepts too many in release builds, by wrap-around (C18).
* `Font::width`: fixed width is only found when unused slots have the same width (C29).
* `text_width` and `character` find NUL in unused slots (C27).
* 8-bit monochrome graphics are shown as classic color numbers (C36).
* 1-bit graphics in default colors are invisible on all but 24-bit signs (C38).
* OFF pages have the size of the last text rectangle (C39), not of the sign.
* Middle-justified text with character cells higher than the font is drawn outside of its rectangle; so is text in default
  font 0 (C43).
* Going back to an earlier line by two changes of page justification is accepted (C47).
* Texts overlap: after a redundant `[jl]` tag, left against right texts, `[jp]` followed by `[nl]`, top against bottom
  texts (C62, C63).
* A line after `[jp]` and `[nl]` is counted twice if it has two texts, so that text that fits is too big (C45).
* `fill` drops, merges or moves font tags of the pattern (C57), joins texts (C56), and returns nothing on signs that do not
  support `[np]` (C58, C60).
* A tfon font without characters is not read back (C34).
* Font names longer than 64 bytes are cut when a file is read; the font is then not found by its full name (C70, C105).
* `normalize` drops `[np]`, `[pb]`, `[cb]`, `[pt]` after the last text: pages, colors and times change (C71).  Texts
  overlapping because of a redundant `[jl]` tag do not overlap after normalizing, as the tag is removed (C71).
* `widths` does not look at `[sc]` tags, and font version IDs are not noticed before there is text: lines of the widths told
  may not be shown (C72).
* The BMP writer of the examples leaves the bytes which fill up the rows out of the file size of the header (C73).
* The rendering example panics before it writes anything: its sign of 140 by 28 pixels does not fit on the default face, and
  the error of the builder is unwrapped (C104).
* A sign may have pixels beyond its last whole character cell: text rectangles up to the edge (`[tr1,1,0,0]`) are refused
  there (C75).
* In release builds sums of widths of 65536 or more wrap around: a text that is much too wide is drawn without an error,
  overlapping or at a wrong place (C82).
* No character spacing is added in a text while its width is 0, but between two texts: with characters of width 0 it
  matters how a text is divided (C81).
* After the error of a tag of text the sign can not show (`[jl5]`, `[sc]` with character cells, ...) the rest of the message
  is dropped, all later pages included; after other errors the rest of a page with several text rectangles is given as a
  page of its own (C94, C95).

Not checked by the code, and not claimed
* `MultiCfg::validate` does not look at the default font and default justifications (see the hypotheses of C44, C67).
* `max_number_pages` and `max_multi_string_length` are never enforced.
* The comment of `Pattern` says that any tag makes an area not fillable; only texts and `[nl]` do.  `[hc41]` does not
  occupy an area either.
* `tfon::parse` returns fonts that do not validate (C70); bitmaps of height 0 at the begin of a file are not noticed.
* 24-bit graphics keep their colors on monochrome signs (C52 is about signs without such graphics).
* A `[cb]` tag within a page changes monochrome graphics after it, and the background of the whole page at once
  (the page is scanned for background tags first; C66).

## Wrong programs

`seeded/seed.py` applies one edit at a time to a copy of the model (outside of this directory), rebuilds, and records
which theorems fail.  An edit counts as noticed when a theorem of each broken claim fails (with the dependencies of
`Deps.txt`: a theorem fails also when a lemma it uses fails).  Results: `seeded/LOG.jsonl`.  What a failing proof does not
show is that the claim is false - a proof may be brittle; for each edit the claims listed as broken were chosen by hand
beforehand, by reasoning about inputs on which the edit changes the result.
