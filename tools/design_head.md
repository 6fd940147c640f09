# Formal model of mnit-rtmc/ntcip in Lean 4

Lean 4.33.0 and Mathlib, project in `lean/`.  `lake build` in `lean/` checks everything.

* `lean/Verif/Model` - the code of /repo, function by function; each definition cites file and lines.
* `lean/Verif/Spec` - specifications, written without the functions of the model that they judge (they use its data types, and
  where a claim is about text of a message, the tokens of the message).
* `lean/Verif/Props` - the property theorems `Cnn_...`, each with concrete cases beside it (`example ... := by decide`, or a
  theorem about an example sign of `Verif/Tests`).
* `lean/Verif/Lemmas` - helper lemmas.
* `lean/Verif/Tests` - the unit tests of the repository, run against the model by the kernel (`decide +kernel`).  They
  are evidence that the model is right, not proofs of properties.
* `properties.jsonl`, `MANIFEST.json` - properties, and theorems for each.
* `seeded/` - wrong programs: `LOG.jsonl` has a line for each wrong edit of the model, with the theorems that fail.
* `tools/` - scripts that write MANIFEST.json and this file.

## Trusted base

* The Lean kernel.  No `native_decide`, `bv_decide`, `sorry`, `unsafe`, `implemented_by`, own axioms.
* Axioms: every theorem depends at most on `propext`, `Classical.choice`, `Quot.sound` (listed for each property below).
* The model is a translation by hand.  That a definition of `Verif/Model` does what the cited Rust lines do is not proved;
  it was checked by reading, by the repository's own tests (`Verif/Tests`: fonts, MULTI parsing and normalisation, patterns,
  rendering of pages), and by the negative theorems, which were traced through the source by hand.
* Semantics of Rust, its standard library and of the crates `pix`, `fstr`, `crc`, `enumflags2` and `tfon`, as far as written below.

### What is modelled

All of src/dms of the repository, and the rendering example with its image writer:

| file | model | not modelled |
|------|-------|--------------|
| multi.rs | Model/Multi.lean: values, colors, color context, rectangles, `Display`, parsers of all tags, `MultiStr` iteration, `split`, `normalize`, `is_blank`, `join_text`, `text_spans` | `Debug`, `log` messages, the text of errors |
| render.rs | Model/Render.lean: pages, page state, render state, text spans, lines, layout, graphics, rectangles; Model/Release.lean: the same in release builds | - |
| sign.rs | Model/Sign.lean, Model/Position.lean: builder, accessors used by the rest, pixel positions | - |
| config.rs | Model/Config.lean: types, `validate` in checked and wrapping arithmetic | - |
| font/mod.rs | Model/Font.lean: tables, lookup, widths, drawing, validation, version ID | - |
| font/tfon.rs | Model/Tfon.lean: parse and write in terms of the properties of the `tfon` crate | the text layer of the `tfon` crate, reading from a stream, I/O errors |
| graphic.rs | Model/Graphic.lean: tables, pixels, drawing, validation, version ID | - |
| oer.rs | Model/Oer.lean: encoder, CRC-16 | - |
| pattern.rs | Model/Pattern.lean: iteration, `fill`, `lines`, `widths` | - |
| examples/graphic.rs | Model/Example.lean: the file written | writing the file |
| examples/bmp/mod.rs | Model/Bmp.lean: the bytes of the file | writing the file; the conversion to BGR by `pix` (the alpha channel is dropped, clear pixels become black) |
| examples/render.rs | Model/Example.lean: the sign, the message and the loop over the pages | failures of writing a file |

### Conventions, and simplifications

* `str`/`String` is `List Char` (`Str`); Lean's `Char` is, as in Rust, a Unicode scalar value.  Where the code slices by
  bytes the model has UTF-8 sizes, and slicing inside of a character is a panic.
* `u8`/`u16`/`u32` fields are `UInt8`/`UInt16`/`UInt32`.  Arithmetic that can overflow goes through `chk8`, `chk16`,
  `sub16`: overflow is the outcome `panic` - the profile with `overflow-checks`, default for `cargo build` and `cargo test`.
  Release builds wrap around instead: Model/Release.lean has the renderer, text widths and `widths` in this profile, and
  C82 shows that results without overflow are the same in both.  config.rs (C18), pixel positions (C25) and intersections
  of rectangles have the profile as a parameter.
* `usize` is `Nat` (64 bit, never exceeded by the sizes that occur).
* `Result`/`Option` stay data; every panic (`unwrap`, index, `unimplemented!`, `unreachable!`, `debug_assert!`,
  arithmetic) is the explicit outcome `panic` of `Res`/`Out`.
* `&mut self` methods return the new value.  When a method fails after changing fields, the model has the changed fields.
* Iterators are lists, or a step function where laziness matters (`Pages.next`, `PatIter.next`).  Parsing of an item is
  lazy in the code, and so it is in the model: an item is parsed when it is reached.
* Loops are structural recursions; `while` loops have fuel, with a proof that it is enough (or that the loop does not
  end, C26).
* Fonts and graphics are in tables of fixed length in the code (const generics `C`, `F`, `G`); the model has lists of
  any length.
* `f32` (pixel positions) is the rational number, with rounding to nearest even at each operation (Model/F32.lean).  No
  infinity, NaN or negative zero; C25 has the bounds that exclude them.
* `Raster<SRgb8>` of `pix` is a function of coordinates with a size.  `Rgb` is three bytes.  Color conversion of `pix`
  is not used by the crate.
* `FStr<64>` (names) is a string cut to 64 bytes at a character boundary; up to the first NUL when read.  Its default
  value is 64 spaces (`defaultName`), which are then the name of an unused slot and of a font read without a name.
* `u16::from_be` in version IDs (C30) swaps bytes, as on little-endian hosts; on a big-endian host the code would give other
  version IDs.
* Logging has no modelled effect.
