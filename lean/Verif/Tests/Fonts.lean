import Verif.Model.Tfon
/-
The fonts of /repo/test/*.tfon, as the property lists the `tfon` parser yields for them
(generated from those files), and the fonts `tfon::parse` makes of them.
-/
namespace Ntcip.Tests
open Tfon

/-- properties of one glyph of height `h` -/
def glyph (h : UInt8) (cp : UInt16) (w : UInt8) (bits : List UInt8) : List TProp :=
  [.codePoint cp, .bitmap ⟨h, w, bits⟩]

/-- /repo/test/F02.tfon -/
def f02Props : List TProp :=
  [.fontName c!"fontVersionId example", .fontNumber 2, .charSpacing 1, .lineSpacing 3] ++
  List.flatten [
    glyph 7 52 7 [28, 89, 52, 111, 225, 131, 0],
    glyph 7 65 6 [123, 60, 255, 207, 60, 192]]

/-- the font parsed from F02.tfon into 128 slots -/
def f02 : Font where
  number := 2
  name := c!"fontVersionId example"
  height := 7
  charSpacing := 1
  lineSpacing := 3
  characters := [
    ⟨52, 7, [28, 89, 52, 111, 225, 131, 0]⟩,
    ⟨65, 6, [123, 60, 255, 207, 60, 192]⟩] ++ List.replicate 126 .default

example : parse 128 f02Props = .ok f02 := by decide +kernel

/-- /repo/test/F07.tfon -/
def f07Props : List TProp :=
  [.fontName c!"F07", .fontNumber 7, .charSpacing 2, .lineSpacing 3] ++
  List.flatten [
    glyph 7 32 1 [0],
    glyph 7 33 2 [170, 136],
    glyph 7 34 3 [180, 0, 0],
    glyph 7 35 5 [82, 190, 175, 169, 64],
    glyph 7 36 5 [35, 168, 226, 184, 128],
    glyph 7 37 5 [198, 68, 68, 76, 96],
    glyph 7 38 5 [69, 40, 138, 201, 160],
    glyph 7 39 1 [192],
    glyph 7 40 3 [42, 72, 136],
    glyph 7 41 3 [136, 146, 160],
    glyph 7 42 7 [16, 81, 20, 20, 69, 4, 0],
    glyph 7 43 5 [1, 9, 242, 16, 0],
    glyph 7 44 3 [0, 0, 160],
    glyph 7 45 4 [0, 15, 0, 0],
    glyph 7 46 2 [0, 8],
    glyph 7 47 5 [0, 68, 68, 64, 0],
    glyph 7 48 4 [105, 153, 153, 96],
    glyph 7 49 3 [89, 36, 184],
    glyph 7 50 4 [105, 18, 72, 240],
    glyph 7 51 4 [105, 22, 25, 96],
    glyph 7 52 5 [17, 149, 47, 136, 64],
    glyph 7 53 4 [248, 134, 25, 96],
    glyph 7 54 4 [105, 142, 153, 96],
    glyph 7 55 4 [241, 18, 36, 64],
    glyph 7 56 4 [105, 150, 153, 96],
    glyph 7 57 4 [105, 151, 25, 96],
    glyph 7 58 2 [8, 128],
    glyph 7 59 3 [1, 5, 0],
    glyph 7 60 4 [18, 72, 66, 16],
    glyph 7 61 4 [0, 240, 240, 0],
    glyph 7 62 4 [132, 33, 36, 128],
    glyph 7 63 4 [105, 18, 32, 32],
    glyph 7 64 5 [116, 103, 89, 193, 192],
    glyph 7 65 4 [105, 159, 153, 144],
    glyph 7 66 4 [233, 158, 153, 224],
    glyph 7 67 4 [105, 136, 137, 96],
    glyph 7 68 4 [233, 153, 153, 224],
    glyph 7 69 4 [248, 142, 136, 240],
    glyph 7 70 4 [248, 142, 136, 128],
    glyph 7 71 4 [105, 139, 153, 112],
    glyph 7 72 4 [153, 159, 153, 144],
    glyph 7 73 3 [233, 36, 184],
    glyph 7 74 4 [17, 17, 25, 96],
    glyph 7 75 4 [153, 172, 169, 144],
    glyph 7 76 4 [136, 136, 136, 240],
    glyph 7 77 7 [131, 142, 172, 153, 48, 96, 128],
    glyph 7 78 5 [142, 115, 89, 206, 32],
    glyph 7 79 4 [105, 153, 153, 96],
    glyph 7 80 4 [233, 158, 136, 128],
    glyph 7 81 5 [116, 99, 26, 201, 160],
    glyph 7 82 4 [233, 158, 169, 144],
    glyph 7 83 4 [105, 134, 25, 96],
    glyph 7 84 5 [249, 8, 66, 16, 128],
    glyph 7 85 4 [153, 153, 153, 96],
    glyph 7 86 5 [140, 99, 21, 40, 128],
    glyph 7 87 7 [131, 6, 12, 154, 181, 81, 0],
    glyph 7 88 5 [140, 84, 69, 70, 32],
    glyph 7 89 5 [140, 84, 66, 16, 128],
    glyph 7 90 5 [248, 68, 68, 67, 224],
    glyph 7 91 3 [242, 73, 56],
    glyph 7 92 5 [4, 16, 65, 4, 0],
    glyph 7 93 3 [228, 146, 120],
    glyph 7 94 5 [34, 162, 0, 0, 0],
    glyph 7 95 5 [0, 0, 0, 3, 224],
    glyph 7 111 2 [0, 0],
    glyph 7 123 7 [3, 10, 36, 138, 24, 63, 0],
    glyph 7 124 1 [254],
    glyph 7 125 9 [8, 4, 34, 41, 34, 160, 224, 32],
    glyph 7 126 2 [0, 0]]

/-- the font parsed from F07.tfon into 128 slots -/
def f07 : Font where
  number := 7
  name := c!"F07"
  height := 7
  charSpacing := 2
  lineSpacing := 3
  characters := [
    ⟨32, 1, [0]⟩,
    ⟨33, 2, [170, 136]⟩,
    ⟨34, 3, [180, 0, 0]⟩,
    ⟨35, 5, [82, 190, 175, 169, 64]⟩,
    ⟨36, 5, [35, 168, 226, 184, 128]⟩,
    ⟨37, 5, [198, 68, 68, 76, 96]⟩,
    ⟨38, 5, [69, 40, 138, 201, 160]⟩,
    ⟨39, 1, [192]⟩,
    ⟨40, 3, [42, 72, 136]⟩,
    ⟨41, 3, [136, 146, 160]⟩,
    ⟨42, 7, [16, 81, 20, 20, 69, 4, 0]⟩,
    ⟨43, 5, [1, 9, 242, 16, 0]⟩,
    ⟨44, 3, [0, 0, 160]⟩,
    ⟨45, 4, [0, 15, 0, 0]⟩,
    ⟨46, 2, [0, 8]⟩,
    ⟨47, 5, [0, 68, 68, 64, 0]⟩,
    ⟨48, 4, [105, 153, 153, 96]⟩,
    ⟨49, 3, [89, 36, 184]⟩,
    ⟨50, 4, [105, 18, 72, 240]⟩,
    ⟨51, 4, [105, 22, 25, 96]⟩,
    ⟨52, 5, [17, 149, 47, 136, 64]⟩,
    ⟨53, 4, [248, 134, 25, 96]⟩,
    ⟨54, 4, [105, 142, 153, 96]⟩,
    ⟨55, 4, [241, 18, 36, 64]⟩,
    ⟨56, 4, [105, 150, 153, 96]⟩,
    ⟨57, 4, [105, 151, 25, 96]⟩,
    ⟨58, 2, [8, 128]⟩,
    ⟨59, 3, [1, 5, 0]⟩,
    ⟨60, 4, [18, 72, 66, 16]⟩,
    ⟨61, 4, [0, 240, 240, 0]⟩,
    ⟨62, 4, [132, 33, 36, 128]⟩,
    ⟨63, 4, [105, 18, 32, 32]⟩,
    ⟨64, 5, [116, 103, 89, 193, 192]⟩,
    ⟨65, 4, [105, 159, 153, 144]⟩,
    ⟨66, 4, [233, 158, 153, 224]⟩,
    ⟨67, 4, [105, 136, 137, 96]⟩,
    ⟨68, 4, [233, 153, 153, 224]⟩,
    ⟨69, 4, [248, 142, 136, 240]⟩,
    ⟨70, 4, [248, 142, 136, 128]⟩,
    ⟨71, 4, [105, 139, 153, 112]⟩,
    ⟨72, 4, [153, 159, 153, 144]⟩,
    ⟨73, 3, [233, 36, 184]⟩,
    ⟨74, 4, [17, 17, 25, 96]⟩,
    ⟨75, 4, [153, 172, 169, 144]⟩,
    ⟨76, 4, [136, 136, 136, 240]⟩,
    ⟨77, 7, [131, 142, 172, 153, 48, 96, 128]⟩,
    ⟨78, 5, [142, 115, 89, 206, 32]⟩,
    ⟨79, 4, [105, 153, 153, 96]⟩,
    ⟨80, 4, [233, 158, 136, 128]⟩,
    ⟨81, 5, [116, 99, 26, 201, 160]⟩,
    ⟨82, 4, [233, 158, 169, 144]⟩,
    ⟨83, 4, [105, 134, 25, 96]⟩,
    ⟨84, 5, [249, 8, 66, 16, 128]⟩,
    ⟨85, 4, [153, 153, 153, 96]⟩,
    ⟨86, 5, [140, 99, 21, 40, 128]⟩,
    ⟨87, 7, [131, 6, 12, 154, 181, 81, 0]⟩,
    ⟨88, 5, [140, 84, 69, 70, 32]⟩,
    ⟨89, 5, [140, 84, 66, 16, 128]⟩,
    ⟨90, 5, [248, 68, 68, 67, 224]⟩,
    ⟨91, 3, [242, 73, 56]⟩,
    ⟨92, 5, [4, 16, 65, 4, 0]⟩,
    ⟨93, 3, [228, 146, 120]⟩,
    ⟨94, 5, [34, 162, 0, 0, 0]⟩,
    ⟨95, 5, [0, 0, 0, 3, 224]⟩,
    ⟨111, 2, [0, 0]⟩,
    ⟨123, 7, [3, 10, 36, 138, 24, 63, 0]⟩,
    ⟨124, 1, [254]⟩,
    ⟨125, 9, [8, 4, 34, 41, 34, 160, 224, 32]⟩,
    ⟨126, 2, [0, 0]⟩] ++ List.replicate 59 .default

example : parse 128 f07Props = .ok f07 := by decide +kernel

/-- /repo/test/F07-C.tfon -/
def f07cProps : List TProp :=
  [.fontName c!"F07-C", .fontNumber 5, .charSpacing 0, .lineSpacing 0] ++
  List.flatten [
    glyph 7 32 5 [0, 0, 0, 0, 0],
    glyph 7 33 5 [33, 8, 66, 0, 128],
    glyph 7 34 5 [82, 128, 0, 0, 0],
    glyph 7 35 5 [82, 190, 175, 169, 64],
    glyph 7 36 5 [35, 168, 226, 184, 128],
    glyph 7 37 5 [198, 68, 68, 76, 96],
    glyph 7 38 5 [69, 40, 138, 201, 160],
    glyph 7 39 5 [33, 0, 0, 0, 0],
    glyph 7 40 5 [17, 16, 132, 16, 64],
    glyph 7 41 5 [65, 4, 33, 17, 0],
    glyph 7 42 5 [37, 92, 71, 84, 128],
    glyph 7 43 5 [1, 9, 242, 16, 0],
    glyph 7 44 5 [0, 0, 0, 17, 0],
    glyph 7 45 5 [0, 0, 224, 0, 0],
    glyph 7 46 5 [0, 0, 0, 0, 128],
    glyph 7 47 5 [0, 68, 68, 64, 0],
    glyph 7 48 5 [50, 82, 148, 164, 192],
    glyph 7 49 5 [35, 8, 66, 17, 192],
    glyph 7 50 5 [116, 66, 100, 67, 224],
    glyph 7 51 5 [116, 66, 96, 197, 192],
    glyph 7 52 5 [17, 149, 47, 136, 64],
    glyph 7 53 5 [252, 32, 224, 197, 192],
    glyph 7 54 5 [116, 97, 232, 197, 192],
    glyph 7 55 5 [248, 68, 34, 17, 0],
    glyph 7 56 5 [116, 98, 232, 197, 192],
    glyph 7 57 5 [116, 98, 240, 197, 192],
    glyph 7 58 5 [0, 16, 4, 0, 0],
    glyph 7 59 5 [0, 8, 2, 32, 0],
    glyph 7 60 5 [17, 17, 4, 16, 64],
    glyph 7 61 5 [0, 62, 15, 128, 0],
    glyph 7 62 5 [65, 4, 17, 17, 0],
    glyph 7 63 5 [100, 132, 66, 0, 128],
    glyph 7 64 5 [116, 103, 89, 193, 192],
    glyph 7 65 5 [116, 99, 248, 198, 32],
    glyph 7 66 5 [244, 99, 232, 199, 192],
    glyph 7 67 5 [116, 97, 8, 69, 192],
    glyph 7 68 5 [244, 99, 24, 199, 192],
    glyph 7 69 5 [252, 33, 232, 67, 224],
    glyph 7 70 5 [252, 33, 232, 66, 0],
    glyph 7 71 5 [116, 97, 120, 197, 224],
    glyph 7 72 5 [140, 99, 248, 198, 32],
    glyph 7 73 5 [113, 8, 66, 17, 192],
    glyph 7 74 5 [16, 132, 33, 73, 128],
    glyph 7 75 5 [140, 169, 138, 74, 32],
    glyph 7 76 5 [132, 33, 8, 67, 224],
    glyph 7 77 5 [142, 235, 24, 198, 32],
    glyph 7 78 5 [142, 115, 89, 206, 32],
    glyph 7 79 5 [116, 99, 24, 197, 192],
    glyph 7 80 5 [244, 99, 232, 66, 0],
    glyph 7 81 5 [116, 99, 26, 201, 160],
    glyph 7 82 5 [244, 99, 234, 74, 32],
    glyph 7 83 5 [116, 96, 224, 197, 192],
    glyph 7 84 5 [249, 8, 66, 16, 128],
    glyph 7 85 5 [140, 99, 24, 197, 192],
    glyph 7 86 5 [140, 99, 21, 40, 128],
    glyph 7 87 5 [140, 99, 26, 213, 64],
    glyph 7 88 5 [140, 84, 69, 70, 32],
    glyph 7 89 5 [140, 84, 66, 16, 128],
    glyph 7 90 5 [248, 68, 68, 67, 224],
    glyph 7 91 5 [114, 16, 132, 33, 192],
    glyph 7 92 5 [4, 16, 65, 4, 0],
    glyph 7 93 5 [112, 132, 33, 9, 192],
    glyph 7 94 5 [34, 162, 0, 0, 0],
    glyph 7 95 5 [0, 0, 0, 3, 224]]

/-- the font parsed from F07-C.tfon into 128 slots -/
def f07c : Font where
  number := 5
  name := c!"F07-C"
  height := 7
  charSpacing := 0
  lineSpacing := 0
  characters := [
    ⟨32, 5, [0, 0, 0, 0, 0]⟩,
    ⟨33, 5, [33, 8, 66, 0, 128]⟩,
    ⟨34, 5, [82, 128, 0, 0, 0]⟩,
    ⟨35, 5, [82, 190, 175, 169, 64]⟩,
    ⟨36, 5, [35, 168, 226, 184, 128]⟩,
    ⟨37, 5, [198, 68, 68, 76, 96]⟩,
    ⟨38, 5, [69, 40, 138, 201, 160]⟩,
    ⟨39, 5, [33, 0, 0, 0, 0]⟩,
    ⟨40, 5, [17, 16, 132, 16, 64]⟩,
    ⟨41, 5, [65, 4, 33, 17, 0]⟩,
    ⟨42, 5, [37, 92, 71, 84, 128]⟩,
    ⟨43, 5, [1, 9, 242, 16, 0]⟩,
    ⟨44, 5, [0, 0, 0, 17, 0]⟩,
    ⟨45, 5, [0, 0, 224, 0, 0]⟩,
    ⟨46, 5, [0, 0, 0, 0, 128]⟩,
    ⟨47, 5, [0, 68, 68, 64, 0]⟩,
    ⟨48, 5, [50, 82, 148, 164, 192]⟩,
    ⟨49, 5, [35, 8, 66, 17, 192]⟩,
    ⟨50, 5, [116, 66, 100, 67, 224]⟩,
    ⟨51, 5, [116, 66, 96, 197, 192]⟩,
    ⟨52, 5, [17, 149, 47, 136, 64]⟩,
    ⟨53, 5, [252, 32, 224, 197, 192]⟩,
    ⟨54, 5, [116, 97, 232, 197, 192]⟩,
    ⟨55, 5, [248, 68, 34, 17, 0]⟩,
    ⟨56, 5, [116, 98, 232, 197, 192]⟩,
    ⟨57, 5, [116, 98, 240, 197, 192]⟩,
    ⟨58, 5, [0, 16, 4, 0, 0]⟩,
    ⟨59, 5, [0, 8, 2, 32, 0]⟩,
    ⟨60, 5, [17, 17, 4, 16, 64]⟩,
    ⟨61, 5, [0, 62, 15, 128, 0]⟩,
    ⟨62, 5, [65, 4, 17, 17, 0]⟩,
    ⟨63, 5, [100, 132, 66, 0, 128]⟩,
    ⟨64, 5, [116, 103, 89, 193, 192]⟩,
    ⟨65, 5, [116, 99, 248, 198, 32]⟩,
    ⟨66, 5, [244, 99, 232, 199, 192]⟩,
    ⟨67, 5, [116, 97, 8, 69, 192]⟩,
    ⟨68, 5, [244, 99, 24, 199, 192]⟩,
    ⟨69, 5, [252, 33, 232, 67, 224]⟩,
    ⟨70, 5, [252, 33, 232, 66, 0]⟩,
    ⟨71, 5, [116, 97, 120, 197, 224]⟩,
    ⟨72, 5, [140, 99, 248, 198, 32]⟩,
    ⟨73, 5, [113, 8, 66, 17, 192]⟩,
    ⟨74, 5, [16, 132, 33, 73, 128]⟩,
    ⟨75, 5, [140, 169, 138, 74, 32]⟩,
    ⟨76, 5, [132, 33, 8, 67, 224]⟩,
    ⟨77, 5, [142, 235, 24, 198, 32]⟩,
    ⟨78, 5, [142, 115, 89, 206, 32]⟩,
    ⟨79, 5, [116, 99, 24, 197, 192]⟩,
    ⟨80, 5, [244, 99, 232, 66, 0]⟩,
    ⟨81, 5, [116, 99, 26, 201, 160]⟩,
    ⟨82, 5, [244, 99, 234, 74, 32]⟩,
    ⟨83, 5, [116, 96, 224, 197, 192]⟩,
    ⟨84, 5, [249, 8, 66, 16, 128]⟩,
    ⟨85, 5, [140, 99, 24, 197, 192]⟩,
    ⟨86, 5, [140, 99, 21, 40, 128]⟩,
    ⟨87, 5, [140, 99, 26, 213, 64]⟩,
    ⟨88, 5, [140, 84, 69, 70, 32]⟩,
    ⟨89, 5, [140, 84, 66, 16, 128]⟩,
    ⟨90, 5, [248, 68, 68, 67, 224]⟩,
    ⟨91, 5, [114, 16, 132, 33, 192]⟩,
    ⟨92, 5, [4, 16, 65, 4, 0]⟩,
    ⟨93, 5, [112, 132, 33, 9, 192]⟩,
    ⟨94, 5, [34, 162, 0, 0, 0]⟩,
    ⟨95, 5, [0, 0, 0, 3, 224]⟩] ++ List.replicate 64 .default

example : parse 128 f07cProps = .ok f07c := by decide +kernel

/-- /repo/test/F08.tfon -/
def f08Props : List TProp :=
  [.fontName c!"F08", .fontNumber 8, .charSpacing 2, .lineSpacing 2] ++
  List.flatten [
    glyph 8 32 1 [0],
    glyph 8 33 2 [170, 162],
    glyph 8 34 3 [180, 0, 0],
    glyph 8 35 5 [82, 190, 175, 169, 64],
    glyph 8 36 5 [35, 168, 226, 184, 128],
    glyph 8 37 5 [198, 68, 68, 76, 96],
    glyph 8 38 5 [69, 40, 138, 202, 109],
    glyph 8 39 1 [192],
    glyph 8 40 3 [42, 73, 17],
    glyph 8 41 3 [136, 146, 84],
    glyph 8 42 5 [1, 42, 231, 84, 128],
    glyph 8 43 5 [1, 9, 242, 16, 0],
    glyph 8 44 3 [0, 0, 20],
    glyph 8 45 4 [0, 15, 0, 0],
    glyph 8 46 2 [0, 2],
    glyph 8 47 5 [8, 68, 66, 34, 16],
    glyph 8 48 4 [105, 153, 153, 150],
    glyph 8 49 3 [89, 36, 151],
    glyph 8 50 5 [116, 66, 38, 66, 31],
    glyph 8 51 5 [116, 66, 96, 134, 46],
    glyph 8 52 5 [17, 149, 47, 136, 66],
    glyph 8 53 5 [252, 32, 224, 134, 46],
    glyph 8 54 5 [116, 97, 232, 198, 46],
    glyph 8 55 5 [248, 68, 34, 17, 8],
    glyph 8 56 5 [116, 98, 232, 198, 46],
    glyph 8 57 5 [116, 99, 23, 134, 46],
    glyph 8 58 2 [8, 128],
    glyph 8 59 3 [1, 5, 0],
    glyph 8 60 4 [18, 72, 66, 16],
    glyph 8 61 4 [0, 240, 240, 0],
    glyph 8 62 4 [132, 33, 36, 128],
    glyph 8 63 5 [116, 66, 34, 16, 4],
    glyph 8 64 5 [116, 103, 90, 206, 14],
    glyph 8 65 5 [116, 99, 31, 198, 49],
    glyph 8 66 5 [244, 99, 232, 198, 62],
    glyph 8 67 5 [116, 97, 8, 66, 46],
    glyph 8 68 5 [244, 99, 24, 198, 62],
    glyph 8 69 5 [252, 33, 200, 66, 31],
    glyph 8 70 5 [252, 33, 200, 66, 16],
    glyph 8 71 5 [116, 97, 9, 198, 46],
    glyph 8 72 5 [140, 99, 248, 198, 49],
    glyph 8 73 3 [233, 36, 151],
    glyph 8 74 4 [17, 17, 17, 150],
    glyph 8 75 5 [140, 169, 138, 74, 49],
    glyph 8 76 4 [136, 136, 136, 143],
    glyph 8 77 7 [131, 142, 172, 153, 48, 96, 193],
    glyph 8 78 5 [142, 115, 90, 206, 113],
    glyph 8 79 5 [116, 99, 24, 198, 46],
    glyph 8 80 5 [244, 99, 232, 66, 16],
    glyph 8 81 5 [116, 99, 24, 214, 77],
    glyph 8 82 5 [244, 99, 234, 74, 49],
    glyph 8 83 5 [116, 96, 224, 134, 46],
    glyph 8 84 5 [249, 8, 66, 16, 132],
    glyph 8 85 5 [140, 99, 24, 198, 46],
    glyph 8 86 5 [140, 99, 24, 169, 68],
    glyph 8 87 7 [131, 6, 12, 25, 53, 106, 162],
    glyph 8 88 5 [140, 84, 66, 42, 49],
    glyph 8 89 5 [140, 84, 162, 16, 132],
    glyph 8 90 5 [248, 68, 66, 34, 31],
    glyph 8 91 3 [242, 73, 39],
    glyph 8 92 5 [132, 16, 66, 8, 33],
    glyph 8 93 3 [228, 146, 79],
    glyph 8 94 5 [34, 162, 0, 0, 0],
    glyph 8 95 5 [0, 0, 0, 0, 31]]

/-- the font parsed from F08.tfon into 128 slots -/
def f08 : Font where
  number := 8
  name := c!"F08"
  height := 8
  charSpacing := 2
  lineSpacing := 2
  characters := [
    ⟨32, 1, [0]⟩,
    ⟨33, 2, [170, 162]⟩,
    ⟨34, 3, [180, 0, 0]⟩,
    ⟨35, 5, [82, 190, 175, 169, 64]⟩,
    ⟨36, 5, [35, 168, 226, 184, 128]⟩,
    ⟨37, 5, [198, 68, 68, 76, 96]⟩,
    ⟨38, 5, [69, 40, 138, 202, 109]⟩,
    ⟨39, 1, [192]⟩,
    ⟨40, 3, [42, 73, 17]⟩,
    ⟨41, 3, [136, 146, 84]⟩,
    ⟨42, 5, [1, 42, 231, 84, 128]⟩,
    ⟨43, 5, [1, 9, 242, 16, 0]⟩,
    ⟨44, 3, [0, 0, 20]⟩,
    ⟨45, 4, [0, 15, 0, 0]⟩,
    ⟨46, 2, [0, 2]⟩,
    ⟨47, 5, [8, 68, 66, 34, 16]⟩,
    ⟨48, 4, [105, 153, 153, 150]⟩,
    ⟨49, 3, [89, 36, 151]⟩,
    ⟨50, 5, [116, 66, 38, 66, 31]⟩,
    ⟨51, 5, [116, 66, 96, 134, 46]⟩,
    ⟨52, 5, [17, 149, 47, 136, 66]⟩,
    ⟨53, 5, [252, 32, 224, 134, 46]⟩,
    ⟨54, 5, [116, 97, 232, 198, 46]⟩,
    ⟨55, 5, [248, 68, 34, 17, 8]⟩,
    ⟨56, 5, [116, 98, 232, 198, 46]⟩,
    ⟨57, 5, [116, 99, 23, 134, 46]⟩,
    ⟨58, 2, [8, 128]⟩,
    ⟨59, 3, [1, 5, 0]⟩,
    ⟨60, 4, [18, 72, 66, 16]⟩,
    ⟨61, 4, [0, 240, 240, 0]⟩,
    ⟨62, 4, [132, 33, 36, 128]⟩,
    ⟨63, 5, [116, 66, 34, 16, 4]⟩,
    ⟨64, 5, [116, 103, 90, 206, 14]⟩,
    ⟨65, 5, [116, 99, 31, 198, 49]⟩,
    ⟨66, 5, [244, 99, 232, 198, 62]⟩,
    ⟨67, 5, [116, 97, 8, 66, 46]⟩,
    ⟨68, 5, [244, 99, 24, 198, 62]⟩,
    ⟨69, 5, [252, 33, 200, 66, 31]⟩,
    ⟨70, 5, [252, 33, 200, 66, 16]⟩,
    ⟨71, 5, [116, 97, 9, 198, 46]⟩,
    ⟨72, 5, [140, 99, 248, 198, 49]⟩,
    ⟨73, 3, [233, 36, 151]⟩,
    ⟨74, 4, [17, 17, 17, 150]⟩,
    ⟨75, 5, [140, 169, 138, 74, 49]⟩,
    ⟨76, 4, [136, 136, 136, 143]⟩,
    ⟨77, 7, [131, 142, 172, 153, 48, 96, 193]⟩,
    ⟨78, 5, [142, 115, 90, 206, 113]⟩,
    ⟨79, 5, [116, 99, 24, 198, 46]⟩,
    ⟨80, 5, [244, 99, 232, 66, 16]⟩,
    ⟨81, 5, [116, 99, 24, 214, 77]⟩,
    ⟨82, 5, [244, 99, 234, 74, 49]⟩,
    ⟨83, 5, [116, 96, 224, 134, 46]⟩,
    ⟨84, 5, [249, 8, 66, 16, 132]⟩,
    ⟨85, 5, [140, 99, 24, 198, 46]⟩,
    ⟨86, 5, [140, 99, 24, 169, 68]⟩,
    ⟨87, 7, [131, 6, 12, 25, 53, 106, 162]⟩,
    ⟨88, 5, [140, 84, 66, 42, 49]⟩,
    ⟨89, 5, [140, 84, 162, 16, 132]⟩,
    ⟨90, 5, [248, 68, 66, 34, 31]⟩,
    ⟨91, 3, [242, 73, 39]⟩,
    ⟨92, 5, [132, 16, 66, 8, 33]⟩,
    ⟨93, 3, [228, 146, 79]⟩,
    ⟨94, 5, [34, 162, 0, 0, 0]⟩,
    ⟨95, 5, [0, 0, 0, 0, 31]⟩] ++ List.replicate 64 .default

example : parse 128 f08Props = .ok f08 := by decide +kernel


-- font_version_id; font/mod.rs:346-352
example : f02.versionId = 0xED52 := by decide +kernel
set_option maxRecDepth 100000 in
example : f08.versionId = 0x28EB := by decide +kernel
-- font_by_name; font/mod.rs:354-359
example : ((FontTable.fontByName [f02, f08] c!"fontVersionId example").map (·.number)) = some 2 := by
  decide +kernel
example : FontTable.validate [f02, f08] = .ok () := by decide +kernel

end Ntcip.Tests
