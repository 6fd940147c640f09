import Verif.Model.Multi
/-
Conformance of the model: the unit tests of /repo/src/dms/multi.rs:1514-3198, evaluated on the
model by the kernel.  Not proofs of properties.
-/
namespace Ntcip.Tests

example : ColorCtx.lerp 0 255 0 = 0 := by decide +kernel

example : ColorCtx.lerp 0 255 128 = 128 := by decide +kernel

example : ColorCtx.lerp 0 255 255 = 255 := by decide +kernel

example : ColorCtx.lerp 0 128 0 = 0 := by decide +kernel

example : ColorCtx.lerp 0 128 128 = 64 := by decide +kernel

example : ColorCtx.lerp 0 128 255 = 128 := by decide +kernel

example : ColorCtx.lerp 128 255 0 = 128 := by decide +kernel

example : ColorCtx.lerp 128 255 128 = 191 := by decide +kernel

example : ColorCtx.lerp 128 255 255 = 255 := by decide +kernel

-- parse_text
example : values c!"THIS IS A TEST" = [.ok (.ok (.text c!"THIS IS A TEST"))] := by decide +kernel

-- parse_lower
example : values c!"this is lower case" = [.ok (.ok (.text c!"this is lower case"))] := by decide +kernel

-- parse_bracket
example : values c!"[[a]]b[[[[c]][[]]]]d" =
    [.ok (.ok (.text c!"[")),
     .ok (.ok (.text c!"a")),
     .ok (.ok (.text c!"]")),
     .ok (.ok (.text c!"b")),
     .ok (.ok (.text c!"[")),
     .ok (.ok (.text c!"[")),
     .ok (.ok (.text c!"c")),
     .ok (.ok (.text c!"]")),
     .ok (.ok (.text c!"[")),
     .ok (.ok (.text c!"]")),
     .ok (.ok (.text c!"]")),
     .ok (.ok (.text c!"d"))] := by decide +kernel

-- parse_bracket2
example : values c!"[[[[[[[[" =
    [.ok (.ok (.text c!"[")),
     .ok (.ok (.text c!"[")),
     .ok (.ok (.text c!"[")),
     .ok (.ok (.text c!"["))] := by decide +kernel

-- parse_cb1
example : values c!"[cb0][CB1][cB255][cb256][cb]" =
    [.ok (.ok (.colorBackground (some (.legacy 0)))),
     .ok (.ok (.colorBackground (some (.legacy 1)))),
     .ok (.ok (.colorBackground (some (.legacy 255)))),
     .ok (.error (.unsupportedTagValue c!"cb256")),
     .ok (.ok (.colorBackground none))] := by decide +kernel

-- parse_cb2
example : values c!"[cbX][cb0,0,0]" =
    [.ok (.error (.unsupportedTagValue c!"cbX")),
     .ok (.error (.unsupportedTagValue c!"cb0,0,0"))] := by decide +kernel

-- parse_pb1
example : values c!"[pb0][PB1][pB255][pb256][pb]" =
    [.ok (.ok (.pageBackground (some (.legacy 0)))),
     .ok (.ok (.pageBackground (some (.legacy 1)))),
     .ok (.ok (.pageBackground (some (.legacy 255)))),
     .ok (.error (.unsupportedTagValue c!"pb256")),
     .ok (.ok (.pageBackground none))] := by decide +kernel

-- parse_pb2
example : values c!"[pb0,0]" =
    [.ok (.error (.unsupportedTagValue c!"pb0,0"))] := by decide +kernel

-- parse_pb3
example : values c!"[pb50,150,200]" =
    [.ok (.ok (.pageBackground (some (.rgb 50 150 200))))] := by decide +kernel

-- parse_pb4
example : values c!"[pb0,0,255,0]" =
    [.ok (.error (.unsupportedTagValue c!"pb0,0,255,0"))] := by decide +kernel

-- parse_pb5
example : values c!"[pb0,0.5,255]" =
    [.ok (.error (.unsupportedTagValue c!"pb0,0.5,255"))] := by decide +kernel

-- parse_cf1
example : values c!"[cf0][CF1][cF255][cf256][cf]" =
    [.ok (.ok (.colorForeground (some (.legacy 0)))),
     .ok (.ok (.colorForeground (some (.legacy 1)))),
     .ok (.ok (.colorForeground (some (.legacy 255)))),
     .ok (.error (.unsupportedTagValue c!"cf256")),
     .ok (.ok (.colorForeground none))] := by decide +kernel

-- parse_cf2
example : values c!"[cf0,0]" =
    [.ok (.error (.unsupportedTagValue c!"cf0,0"))] := by decide +kernel

-- parse_cf3
example : values c!"[cf255,0,208][CF0,a,0]" =
    [.ok (.ok (.colorForeground (some (.rgb 255 0 208)))),
     .ok (.error (.unsupportedTagValue c!"CF0,a,0"))] := by decide +kernel

-- parse_cf4
example : values c!"[cf0,0,255,0]" =
    [.ok (.error (.unsupportedTagValue c!"cf0,0,255,0"))] := by decide +kernel

-- parse_cf5
example : values c!"[cf0,0.5,255]" =
    [.ok (.error (.unsupportedTagValue c!"cf0,0.5,255"))] := by decide +kernel

-- parse_cr
example : values c!"[cr1,1,10,10,0]" =
    [.ok (.ok (.colorRectangle (Rectangle.mk 1 1 10 10) (.legacy 0)))] := by decide +kernel

-- parse_cr2
example : values c!"[CR1,0,10,10,0]" =
    [.ok (.error (.unsupportedTagValue c!"CR1,0,10,10,0"))] := by decide +kernel

-- parse_cr3
example : values c!"[cR1,1,100,100,0,1]" =
    [.ok (.error (.unsupportedTagValue c!"cR1,1,100,100,0,1"))] := by decide +kernel

-- parse_cr4
example : values c!"[Cr5,7,100,80,100,150,200]" =
    [.ok (.ok (.colorRectangle (Rectangle.mk 5 7 100 80) (.rgb 100 150 200)))] := by decide +kernel

-- parse_cr5
example : values c!"[cr1,1,100,100,0,1,2,3]" =
    [.ok (.error (.unsupportedTagValue c!"cr1,1,100,100,0,1,2,3"))] := by decide +kernel

-- parse_cr6
example : values c!"[cr100,200,1000,2000,255,208,0]" =
    [.ok (.ok (.colorRectangle (Rectangle.mk 100 200 1000 2000) (.rgb 255 208 0)))] := by decide +kernel

-- parse_f
example : values c!"[F]" =
    [.ok (.error (.unsupportedTagValue c!"F"))] := by decide +kernel

-- parse_f1
example : values c!"[f1]" =
    [.ok (.ok (.field 1 none))] := by decide +kernel

-- parse_f2
example : values c!"[f13]" =
    [.ok (.ok (.field 13 none))] := by decide +kernel

-- parse_f3
example : values c!"[f14]" =
    [.ok (.error (.unsupportedTagValue c!"f14"))] := by decide +kernel

-- parse_f4
example : values c!"[F4,1]" =
    [.ok (.ok (.field 4 (some 1)))] := by decide +kernel

-- parse_fl
example : values c!"[flto]" =
    [.ok (.ok (.flash .onOff none none))] := by decide +kernel

-- parse_fl2
example : values c!"[FLOT]" =
    [.ok (.ok (.flash .offOn none none))] := by decide +kernel

-- parse_fl3
example : values c!"[Flt10o5]" =
    [.ok (.ok (.flash .onOff (some 10) (some 5)))] := by decide +kernel

-- parse_fl4
example : values c!"[fLo0t99]" =
    [.ok (.ok (.flash .offOn (some 0) (some 99)))] := by decide +kernel

-- parse_fl5
example : values c!"[flt10o5x]" =
    [.ok (.error (.unsupportedTagValue c!"flt10o5x"))] := by decide +kernel

-- parse_fl6
example : values c!"[flt10o100]" =
    [.ok (.error (.unsupportedTagValue c!"flt10o100"))] := by decide +kernel

-- parse_fl7
example : values c!"[flt10o10o10]" =
    [.ok (.error (.unsupportedTagValue c!"flt10o10o10"))] := by decide +kernel

-- parse_fle
example : values c!"[/fl]" =
    [.ok (.ok .flashEnd)] := by decide +kernel

-- parse_fle1
example : values c!"[/fl1]" =
    [.ok (.error (.unsupportedTagValue c!"/fl1"))] := by decide +kernel

-- parse_fo
example : values c!"[fo]" =
    [.ok (.ok (.font none))] := by decide +kernel

-- parse_fo1
example : values c!"[fo1]" =
    [.ok (.ok (.font (some (1, none))))] := by decide +kernel

-- parse_fo2
example : values c!"[fO2,0000]" =
    [.ok (.ok (.font (some (2, (some 0)))))] := by decide +kernel

-- parse_fo3
example : values c!"[Fo3,FFFF]" =
    [.ok (.ok (.font (some (3, (some 0xFFFF)))))] := by decide +kernel

-- parse_fo4
example : values c!"[FO4,FFFFF]" =
    [.ok (.error (.unsupportedTagValue c!"FO4,FFFFF"))] := by decide +kernel

-- parse_fo5
example : values c!"[fo5,xxxx]" =
    [.ok (.error (.unsupportedTagValue c!"fo5,xxxx"))] := by decide +kernel

-- parse_fo6
example : values c!"[fo6,0000,0]" =
    [.ok (.error (.unsupportedTagValue c!"fo6,0000,0"))] := by decide +kernel

-- parse_fo7
example : values c!"[Fo7,abcd]" =
    [.ok (.ok (.font (some (7, (some 0xabcd)))))] := by decide +kernel

-- parse_fo8
example : values c!"[fo0]" =
    [.ok (.error (.unsupportedTagValue c!"fo0"))] := by decide +kernel

-- parse_g
example : values c!"[G]" =
    [.ok (.error (.unsupportedTagValue c!"G"))] := by decide +kernel

-- parse_g1
example : values c!"[g1]" =
    [.ok (.ok (.graphic 1 none))] := by decide +kernel

-- parse_g2
example : values c!"[g2,1,1]" =
    [.ok (.ok (.graphic 2 (some (1, 1, none))))] := by decide +kernel

-- parse_g3
example : values c!"[g3,1]" =
    [.ok (.error (.unsupportedTagValue c!"g3,1"))] := by decide +kernel

-- parse_g4
example : values c!"[g4,1,1,0123]" =
    [.ok (.ok (.graphic 4 (some (1, 1, (some 0x0123)))))] := by decide +kernel

-- parse_g5
example : values c!"[g5,1,0,0123]" =
    [.ok (.error (.unsupportedTagValue c!"g5,1,0,0123"))] := by decide +kernel

-- parse_g6
example : values c!"[g6,300,300,12345]" =
    [.ok (.error (.unsupportedTagValue c!"g6,300,300,12345"))] := by decide +kernel

-- parse_g7
example : values c!"[g7,30,30,1245,]" =
    [.ok (.error (.unsupportedTagValue c!"g7,30,30,1245,"))] := by decide +kernel

-- parse_g8
example : values c!"[G8,50,50,Beef]" =
    [.ok (.ok (.graphic 8 (some (50, 50, (some 0xbeef)))))] := by decide +kernel

-- parse_hc
example : values c!"[hc]" =
    [.ok (.error (.unsupportedTagValue c!"hc"))] := by decide +kernel

-- parse_hc1
example : values c!"[HC1]" =
    [.ok (.ok (.hexadecimalCharacter 0x0001))] := by decide +kernel

-- parse_hc2
example : values c!"[hcFFFF]" =
    [.ok (.ok (.hexadecimalCharacter 0xFFFF))] := by decide +kernel

-- parse_hc3
example : values c!"[hc1FFFF]" =
    [.ok (.error (.unsupportedTagValue c!"hc1FFFF"))] := by decide +kernel

-- parse_hc4
example : values c!"[hcXXxx]" =
    [.ok (.error (.unsupportedTagValue c!"hcXXxx"))] := by decide +kernel

-- parse_hc5
example : values c!"[hc7f]" =
    [.ok (.ok (.hexadecimalCharacter 0x7F))] := by decide +kernel

-- parse_jl
example : values c!"[jl]" =
    [.ok (.ok (.justificationLine none))] := by decide +kernel

-- parse_jl0
example : values c!"[JL0]" =
    [.ok (.error (.unsupportedTagValue c!"JL0"))] := by decide +kernel

-- parse_jl15
example : values c!"[jL1][Jl2][JL3][jl4][JL5]" =
    [.ok (.ok (.justificationLine (some .other))),
     .ok (.ok (.justificationLine (some .left))),
     .ok (.ok (.justificationLine (some .center))),
     .ok (.ok (.justificationLine (some .right))),
     .ok (.ok (.justificationLine (some .full)))] := by decide +kernel

-- parse_jp
example : values c!"[jp]" =
    [.ok (.ok (.justificationPage none))] := by decide +kernel

-- parse_jp0
example : values c!"[JP0]" =
    [.ok (.error (.unsupportedTagValue c!"JP0"))] := by decide +kernel

-- parse_jp14
example : values c!"[jP1][Jp2][JP3][jp4]" =
    [.ok (.ok (.justificationPage (some .other))),
     .ok (.ok (.justificationPage (some .top))),
     .ok (.ok (.justificationPage (some .middle))),
     .ok (.ok (.justificationPage (some .bottom)))] := by decide +kernel

-- parse_ms
example : values c!"[ms0]" =
    [.ok (.ok (.manufacturerSpecific 0 none))] := by decide +kernel

-- parse_ms1
example : values c!"[Ms1,Test]" =
    [.ok (.ok (.manufacturerSpecific 1 (some c!"Test")))] := by decide +kernel

-- parse_ms2
example : values c!"[Ms999,RANDOM junk]" =
    [.ok (.ok (.manufacturerSpecific 999 (some c!"RANDOM junk")))] := by decide +kernel

-- parse_ms3
example : values c!"[Ms9x9]" =
    [.ok (.error (.unsupportedTagValue c!"Ms9x9"))] := by decide +kernel

-- parse_mse
example : values c!"[/ms0]" =
    [.ok (.ok (.manufacturerSpecificEnd 0 none))] := by decide +kernel

-- parse_mse1
example : values c!"[/Ms1,Test]" =
    [.ok (.ok (.manufacturerSpecificEnd 1 (some c!"Test")))] := by decide +kernel

-- parse_mse2
example : values c!"[/Ms999,RANDOM junk]" =
    [.ok (.ok (.manufacturerSpecificEnd 999 (some c!"RANDOM junk")))] := by decide +kernel

-- parse_mse3
example : values c!"[/Ms9x9]" =
    [.ok (.error (.unsupportedTagValue c!"/Ms9x9"))] := by decide +kernel

-- parse_mv
example : values c!"[mv]" =
    [.ok (.error (.unsupportedTagValue c!"mv"))] := by decide +kernel

-- parse_mv1
example : values c!"[mvc]" =
    [.ok (.error (.unsupportedTagValue c!"mvc"))] := by decide +kernel

-- parse_mv2
example : values c!"[mvcl]" =
    [.ok (.error (.unsupportedTagValue c!"mvcl"))] := by decide +kernel

-- parse_mv3
example : values c!"[mvcl100]" =
    [.ok (.error (.unsupportedTagValue c!"mvcl100"))] := by decide +kernel

-- parse_mv4
example : values c!"[mvcl100,1]" =
    [.ok (.error (.unsupportedTagValue c!"mvcl100,1"))] := by decide +kernel

-- parse_mv5
example : values c!"[mvcl100,1,10]" =
    [.ok (.error (.unsupportedTagValue c!"mvcl100,1,10"))] := by decide +kernel

-- parse_mv6
example : values c!"[mvcl100,1,10,Text]" =
    [.ok (.ok (.movingText .circular .left 100 1 10 c!"Text"))] := by decide +kernel

-- parse_mv7
example : values c!"[mvcr150,2,5,*MOVING*]" =
    [.ok (.ok (.movingText .circular .right 150 2 5 c!"*MOVING*"))] := by decide +kernel

-- parse_mv8
example : values c!"[mvll75,3,4,Linear]" =
    [.ok (.ok (.movingText (.linear 0) .left 75 3 4 c!"Linear"))] := by decide +kernel

-- parse_mv9
example : values c!"[mvlr1000,4,5,right]" =
    [.ok (.ok (.movingText (.linear 0) .right 1000 4 5 c!"right"))] := by decide +kernel

-- parse_mv10
example : values c!"[mvl2l100,5,1,left]" =
    [.ok (.ok (.movingText (.linear 2) .left 100 5 1 c!"left"))] := by decide +kernel

-- parse_mv11
example : values c!"[mvl4x100,5,1,left]" =
    [.ok (.error (.unsupportedTagValue c!"mvl4x100,5,1,left"))] := by decide +kernel

-- parse_mv12
example : values c!"[mvl4r100,5,300,left]" =
    [.ok (.error (.unsupportedTagValue c!"mvl4r100,5,300,left"))] := by decide +kernel

-- parse_pt
example : values c!"[pt]" =
    [.ok (.ok (.pageTime none none))] := by decide +kernel

-- parse_pt1
example : values c!"[pt10]" =
    [.ok (.ok (.pageTime (some 10) none))] := by decide +kernel

-- parse_pt2
example : values c!"[pt10o]" =
    [.ok (.ok (.pageTime (some 10) none))] := by decide +kernel

-- parse_pt3
example : values c!"[pt10o2]" =
    [.ok (.ok (.pageTime (some 10) (some 2)))] := by decide +kernel

-- parse_pt4
example : values c!"[pt10o2o]" =
    [.ok (.error (.unsupportedTagValue c!"pt10o2o"))] := by decide +kernel

-- parse_pt5
example : values c!"[pt255O255]" =
    [.ok (.ok (.pageTime (some 255) (some 255)))] := by decide +kernel

-- parse_pt6
example : values c!"[PTO]" =
    [.ok (.ok (.pageTime none none))] := by decide +kernel

-- parse_pt7
example : values c!"[pt256o256]" =
    [.ok (.error (.unsupportedTagValue c!"pt256o256"))] := by decide +kernel

-- parse_pt8
example : values c!"[pt%%%]" =
    [.ok (.error (.unsupportedTagValue c!"pt%%%"))] := by decide +kernel

-- parse_sc
example : values c!"[sc]" =
    [.ok (.error (.unsupportedTagValue c!"sc"))] := by decide +kernel

-- parse_sc1
example : values c!"[SC1]" =
    [.ok (.ok (.spacingCharacter 1))] := by decide +kernel

-- parse_sc2
example : values c!"[Sc99]" =
    [.ok (.ok (.spacingCharacter 99))] := by decide +kernel

-- parse_sc3
example : values c!"[sc100]" =
    [.ok (.error (.unsupportedTagValue c!"sc100"))] := by decide +kernel

-- parse_sc4
example : values c!"[sc2,1]" =
    [.ok (.error (.unsupportedTagValue c!"sc2,1"))] := by decide +kernel

-- parse_sce
example : values c!"[/sc]" =
    [.ok (.ok .spacingCharacterEnd)] := by decide +kernel

-- parse_sce1
example : values c!"[/sc1]" =
    [.ok (.error (.unsupportedTagValue c!"/sc1"))] := by decide +kernel

-- parse_tr
example : values c!"[tr1,1,10,10]" =
    [.ok (.ok (.textRectangle (Rectangle.mk 1 1 10 10)))] := by decide +kernel

-- parse_tr2
example : values c!"[TR1,0,10,10]" =
    [.ok (.error (.unsupportedTagValue c!"TR1,0,10,10"))] := by decide +kernel

-- parse_tr3
example : values c!"[tR1,1,100,100,1]" =
    [.ok (.error (.unsupportedTagValue c!"tR1,1,100,100,1"))] := by decide +kernel

-- parse_tr4
example : values c!"[Tr5,7,100,80]" =
    [.ok (.ok (.textRectangle (Rectangle.mk 5 7 100 80)))] := by decide +kernel

-- parse_tr5
example : values c!"[tr1,1,,100]" =
    [.ok (.error (.unsupportedTagValue c!"tr1,1,,100"))] := by decide +kernel

-- parse_tr6
example : values c!"[tr1,1,0,0]" =
    [.ok (.ok (.textRectangle (Rectangle.mk 1 1 0 0)))] := by decide +kernel

-- parse_new_line
example : values c!"[nl][NL0][Nl1][nL9][nl10]" =
    [.ok (.ok (.newLine none)),
     .ok (.ok (.newLine (some 0))),
     .ok (.ok (.newLine (some 1))),
     .ok (.ok (.newLine (some 9))),
     .ok (.error (.unsupportedTagValue c!"nl10"))] := by decide +kernel

-- parse_multi
example : values c!"[[TEST[nl]TEST 2[np]TEST 3XX[NL]TEST 4]]" =
    [.ok (.ok (.text c!"[")),
     .ok (.ok (.text c!"TEST")),
     .ok (.ok (.newLine none)),
     .ok (.ok (.text c!"TEST 2")),
     .ok (.ok .newPage),
     .ok (.ok (.text c!"TEST 3XX")),
     .ok (.ok (.newLine none)),
     .ok (.ok (.text c!"TEST 4")),
     .ok (.ok (.text c!"]"))] := by decide +kernel

-- parse_valid
example : values c!"\u0001\u00FF" =
    [.ok (.ok (.text c!"\u0001\u00FF"))] := by decide +kernel

-- parse_invalid_1
example : (values c!"\x00").take 1 =
    [.ok (.error (.other ("Invalid code point")))] := by decide +kernel

-- parse_invalid_2
example : (values c!"\u0100").take 1 =
    [.ok (.error (.other ("Invalid code point")))] := by decide +kernel

-- parse_rustacean
example : values c!"🦀🦀" =
    [.ok (.error (.other ("Invalid code point")))] := by decide +kernel

-- parse_tag
example : values c!"[x[x]" =
    [.ok (.error (.unsupportedTag c!"[x")),
     .ok (.error (.unsupportedTag c!"x"))] := by decide +kernel

-- parse_tag2
example : values c!"]" =
    [.ok (.error (.unsupportedTag c!"]"))] := by decide +kernel

-- parse_tag3
example : values c!"[nl" =
    [.ok (.error (.unsupportedTag c!"[nl"))] := by decide +kernel

-- parse_tag4
example : values c!"[" =
    [.ok (.error (.unsupportedTag c!"["))] := by decide +kernel

-- parse_tag5
example : values c!"[x]" =
    [.ok (.error (.unsupportedTag c!"x"))] := by decide +kernel

-- parse_tag6
example : (values c!"bad]").take 2 =
    [.ok (.ok (.text c!"bad")),
     .ok (.error (.unsupportedTag c!"]"))] := by decide +kernel

-- parse_tag8
example : values c!"[pa1,LOW,CLOSED][loca,b,c,d]" =
    [.ok (.error (.unsupportedTag c!"pa1,LOW,CLOSED")),
     .ok (.error (.unsupportedTag c!"loca,b,c,d"))] := by decide +kernel

-- norm_ok
example : normalize c!"01234567890" = .ok c!"01234567890" := by decide +kernel

-- norm_ok
example : normalize c!"ABC" = .ok c!"ABC" := by decide +kernel

-- norm_ok
example : normalize c!"ABC_DEF" = .ok c!"ABC_DEF" := by decide +kernel

-- norm_ok
example : normalize c!"abc" = .ok c!"abc" := by decide +kernel

-- norm_ok
example : normalize c!"DON'T" = .ok c!"DON'T" := by decide +kernel

-- norm_ok
example : normalize c!"SPACE SPACE" = .ok c!"SPACE SPACE" := by decide +kernel

-- norm_ok
example : normalize c!"AB|C" = .ok c!"AB|C" := by decide +kernel

-- norm_ok
example : normalize c!"AB|{}{}C{}" = .ok c!"AB|{}{}C{}" := by decide +kernel

-- norm_ok
example : normalize c!"!\"#$%&\'()*+,-./" = .ok c!"!\"#$%&\'()*+,-./" := by decide +kernel

-- norm_ok
example : normalize c!":;<=>?@\\^_`{|}~" = .ok c!":;<=>?@\\^_`{|}~" := by decide +kernel

-- norm_ok
example : normalize c!"[[" = .ok c!"[[" := by decide +kernel

-- norm_ok
example : normalize c!"]]" = .ok c!"]]" := by decide +kernel

-- norm_ok
example : normalize c!"[[NOT TAG]]" = .ok c!"[[NOT TAG]]" := by decide +kernel

-- norm_ok_tags
example : normalize c!"[jl2]ABC" = .ok c!"[jl2]ABC" := by decide +kernel

-- norm_ok_tags
example : normalize c!"[jl2][jl]ABC" = .ok c!"[jl2][jl]ABC" := by decide +kernel

-- norm_ok_tags
example : normalize c!"[jp2]ABC" = .ok c!"[jp2]ABC" := by decide +kernel

-- norm_ok_tags
example : normalize c!"[jp2][jp]ABC" = .ok c!"[jp2][jp]ABC" := by decide +kernel

-- norm_ok_tags
example : normalize c!"[fo2,1234]ABC" = .ok c!"[fo2,1234]ABC" := by decide +kernel

-- norm_ok_tags
example : normalize c!"[fo2,1234][fo2]ABC" = .ok c!"[fo2,1234][fo2]ABC" := by decide +kernel

-- norm_ok_tags
example : normalize c!"[fo2][fo1]ABC" = .ok c!"[fo2][fo1]ABC" := by decide +kernel

-- norm_ok_tags
example : normalize c!"[cf0,0,0]ABC" = .ok c!"[cf0,0,0]ABC" := by decide +kernel

-- norm_ok_tags
example : normalize c!"[pb0]ABC" = .ok c!"[pb0]ABC" := by decide +kernel

-- norm_ok_tags
example : normalize c!"[pb0,0,0]ABC" = .ok c!"[pb0,0,0]ABC" := by decide +kernel

-- norm_ok_tags
example : normalize c!"[pb0,128,255]ABC" = .ok c!"[pb0,128,255]ABC" := by decide +kernel

-- norm_ok_tags
example : normalize c!"ABC[nl3]DEF" = .ok c!"ABC[nl3]DEF" := by decide +kernel

-- norm_ok_tags
example : normalize c!"ABC[np]DEF" = .ok c!"ABC[np]DEF" := by decide +kernel

-- norm_ok_tags
example : normalize c!"ABC[jl4]DEF" = .ok c!"ABC[jl4]DEF" := by decide +kernel

-- norm_ok_tags
example : normalize c!"ABC[jp4]DEF" = .ok c!"ABC[jp4]DEF" := by decide +kernel

-- norm_ok_tags
example : normalize c!"[fo3]ABC DEF" = .ok c!"[fo3]ABC DEF" := by decide +kernel

-- norm_ok_tags
example : normalize c!"[fo3,beef]ABC DEF" = .ok c!"[fo3,beef]ABC DEF" := by decide +kernel

-- norm_ok_tags
example : normalize c!"[g1]" = .ok c!"[g1]" := by decide +kernel

-- norm_ok_tags
example : normalize c!"[g1,5,5]" = .ok c!"[g1,5,5]" := by decide +kernel

-- norm_ok_tags
example : normalize c!"[g1,5,5,beef]" = .ok c!"[g1,5,5,beef]" := by decide +kernel

-- norm_ok_tags
example : normalize c!"[cf255,255,255]ABC" = .ok c!"[cf255,255,255]ABC" := by decide +kernel

-- norm_ok_tags
example : normalize c!"[cf0,255,255]ABC" = .ok c!"[cf0,255,255]ABC" := by decide +kernel

-- norm_ok_tags
example : normalize c!"[cf0,255,0]ABC" = .ok c!"[cf0,255,0]ABC" := by decide +kernel

-- norm_ok_tags
example : normalize c!"[pto]ABC" = .ok c!"[pto]ABC" := by decide +kernel

-- norm_ok_tags
example : normalize c!"[pt10o]ABC" = .ok c!"[pt10o]ABC" := by decide +kernel

-- norm_ok_tags
example : normalize c!"[pt10o5]ABC" = .ok c!"[pt10o5]ABC" := by decide +kernel

-- norm_ok_tags
example : normalize c!"[pto5]ABC" = .ok c!"[pto5]ABC" := by decide +kernel

-- norm_ok_tags
example : normalize c!"ABC[sc3]DEF" = .ok c!"ABC[sc3]DEF" := by decide +kernel

-- norm_ok_tags
example : normalize c!"ABC[sc3]DEF[/sc]GHI" = .ok c!"ABC[sc3]DEF[/sc]GHI" := by decide +kernel

-- norm_ok_tags
example : normalize c!"[tr1,1,40,20]ABC" = .ok c!"[tr1,1,40,20]ABC" := by decide +kernel

-- norm_ok_tags
example : normalize c!"[tr1,1,0,0]ABC" = .ok c!"[tr1,1,0,0]ABC" := by decide +kernel

-- norm_lowercase
example : normalize c!"[CB255]ABC" = .ok c!"[cb255]ABC" := by decide +kernel

-- norm_lowercase
example : normalize c!"[Jl2]ABC" = .ok c!"[jl2]ABC" := by decide +kernel

-- norm_lowercase
example : normalize c!"[jP3]ABC" = .ok c!"[jp3]ABC" := by decide +kernel

-- norm_lowercase
example : normalize c!"[FO1]ABC" = .ok c!"[fo1]ABC" := by decide +kernel

-- norm_lowercase
example : normalize c!"[CF255]ABC" = .ok c!"[cf255]ABC" := by decide +kernel

-- norm_lowercase
example : normalize c!"[Cf255,255,255]ABC" = .ok c!"[cf255,255,255]ABC" := by decide +kernel

-- norm_lowercase
example : normalize c!"[PB255]ABC" = .ok c!"[pb255]ABC" := by decide +kernel

-- norm_lowercase
example : normalize c!"[pB255,255,255]ABC" = .ok c!"[pb255,255,255]ABC" := by decide +kernel

-- norm_lowercase
example : normalize c!"ABC[NL]DEF" = .ok c!"ABC[nl]DEF" := by decide +kernel

-- norm_lowercase
example : normalize c!"[g1,4,4,BEEF]" = .ok c!"[g1,4,4,beef]" := by decide +kernel

-- norm_invalid_char
example : normalize c!"😀" = .ok c!"" := by decide +kernel

-- norm_invalid_char
example : normalize c!"👍" = .ok c!"" := by decide +kernel

-- norm_invalid_char
example : normalize c!"🦀🦀🦀🦀🦀🦀🦀🦀" = .ok c!"" := by decide +kernel

-- norm_invalid_char
example : normalize c!"🔪" = .ok c!"" := by decide +kernel

-- norm_malformed_tags
example : normalize c!"[" = .ok c!"" := by decide +kernel

-- norm_malformed_tags
example : normalize c!"]" = .ok c!"" := by decide +kernel

-- norm_malformed_tags
example : normalize c!"[bad tag" = .ok c!"" := by decide +kernel

-- norm_malformed_tags
example : normalize c!"bad tag]" = .ok c!"bad tag" := by decide +kernel

-- norm_malformed_tags
example : normalize c!"bad[tag" = .ok c!"bad" := by decide +kernel

-- norm_malformed_tags
example : normalize c!"bad]tag" = .ok c!"badtag" := by decide +kernel

-- norm_malformed_tags
example : normalize c!"bad[ [nl] tag" = .ok c!"bad[nl] tag" := by decide +kernel

-- norm_malformed_tags
example : normalize c!"bad ]tag [nl]X" = .ok c!"bad tag [nl]X" := by decide +kernel

-- norm_unsupported_tags
example : normalize c!"[xx]" = .ok c!"" := by decide +kernel

-- norm_unsupported_tags
example : normalize c!"[ab]" = .ok c!"" := by decide +kernel

-- norm_unsupported_tags
example : normalize c!"[zz]" = .ok c!"" := by decide +kernel

-- norm_unsupported_tags
example : normalize c!"[ttS123]" = .ok c!"" := by decide +kernel

-- norm_invalid_tag_values
example : normalize c!"[cb256]ABC" = .ok c!"ABC" := by decide +kernel

-- norm_invalid_tag_values
example : normalize c!"[jl0]ABC" = .ok c!"ABC" := by decide +kernel

-- norm_invalid_tag_values
example : normalize c!"ABC[jl6]DEF" = .ok c!"ABCDEF" := by decide +kernel

-- norm_invalid_tag_values
example : normalize c!"[jp0]ABC" = .ok c!"ABC" := by decide +kernel

-- norm_invalid_tag_values
example : normalize c!"[jp]ABC" = .ok c!"ABC" := by decide +kernel

-- norm_invalid_tag_values
example : normalize c!"[fo0]ABC" = .ok c!"ABC" := by decide +kernel

-- norm_invalid_tag_values
example : normalize c!"[fo256]ABC" = .ok c!"ABC" := by decide +kernel

-- norm_invalid_tag_values
example : normalize c!"[cf256]ABC" = .ok c!"ABC" := by decide +kernel

-- norm_invalid_tag_values
example : normalize c!"[cf256,0,0][cfx]ABC" = .ok c!"ABC" := by decide +kernel

-- norm_invalid_tag_values
example : normalize c!"[pb256]ABC" = .ok c!"ABC" := by decide +kernel

-- norm_invalid_tag_values
example : normalize c!"[pb256,0,0][pbx]ABC" = .ok c!"ABC" := by decide +kernel

-- norm_invalid_tag_values
example : normalize c!"[g1_]" = .ok c!"" := by decide +kernel

-- norm_redundant_tags
example : normalize c!"[jl]ABC" = .ok c!"ABC" := by decide +kernel

-- norm_redundant_tags
example : normalize c!"[jl2][jl2]ABC" = .ok c!"[jl2]ABC" := by decide +kernel

-- norm_redundant_tags
example : normalize c!"[jp2][jp2]ABC" = .ok c!"[jp2]ABC" := by decide +kernel

-- norm_redundant_tags
example : normalize c!"[fo]ABC" = .ok c!"ABC" := by decide +kernel

-- norm_redundant_tags
example : normalize c!"[fo2][fo2]ABC" = .ok c!"[fo2]ABC" := by decide +kernel

-- norm_redundant_tags
example : normalize c!"[cf]ABC" = .ok c!"ABC" := by decide +kernel

-- norm_redundant_tags
example : normalize c!"[cf3][cf3]ABC" = .ok c!"[cf3]ABC" := by decide +kernel

-- norm_trailing_whitespace
example : normalize c!" \t " = .ok c!"" := by decide +kernel

-- norm_trailing_whitespace
example : normalize c!"[nl]" = .ok c!"" := by decide +kernel

-- norm_trailing_whitespace
example : normalize c!"ABC[nl]" = .ok c!"ABC" := by decide +kernel

-- norm_trailing_whitespace
example : normalize c!"ABC[nl][nl]" = .ok c!"ABC" := by decide +kernel

-- norm_trailing_whitespace
example : normalize c!"[nl]ABC[nl]" = .ok c!"[nl]ABC" := by decide +kernel

-- norm_trailing_whitespace
example : normalize c!"ABC[np]" = .ok c!"ABC" := by decide +kernel

-- norm_trailing_whitespace
example : normalize c!"ABC[nl][np][nl]" = .ok c!"ABC" := by decide +kernel

-- norm_trailing_whitespace
example : normalize c!"ABC[nl] [nl]" = .ok c!"ABC" := by decide +kernel

-- norm_trailing_whitespace
example : normalize c!"ABC[nl]DEF[nl]" = .ok c!"ABC[nl]DEF" := by decide +kernel

-- norm_trailing_whitespace
example : normalize c!"ABC[jp3]" = .ok c!"ABC" := by decide +kernel

-- norm_trailing_whitespace
example : normalize c!"ABC[jl3]" = .ok c!"ABC" := by decide +kernel

-- norm_trailing_whitespace
example : normalize c!"ABC[fo2] " = .ok c!"ABC" := by decide +kernel

-- norm_trailing_whitespace
example : normalize c!"ABC[sc2]" = .ok c!"ABC" := by decide +kernel

-- blank
example : isBlank c!"" = .ok true := by decide +kernel

-- blank
example : isBlank c!" " = .ok true := by decide +kernel

-- blank
example : isBlank c!"[nl]" = .ok true := by decide +kernel

-- blank
example : isBlank c!"[np]" = .ok true := by decide +kernel

-- blank
example : isBlank c!"[pt1o1]" = .ok true := by decide +kernel

-- blank
example : isBlank c!"[jp2]" = .ok true := by decide +kernel

-- blank
example : isBlank c!"[jl3]" = .ok true := by decide +kernel

-- blank
example : isBlank c!"[fo2]" = .ok true := by decide +kernel

-- blank
example : isBlank c!"[sc2]" = .ok true := by decide +kernel

-- blank
example : isBlank c!"[tr1,1,20,20]" = .ok true := by decide +kernel

-- blank
example : isBlank c!"[pb0,1,2]" = .ok true := by decide +kernel

-- not_blank
example : isBlank c!"A" = .ok false := by decide +kernel

-- not_blank
example : isBlank c!"[cr255,0,0]" = .ok false := by decide +kernel

-- not_blank
example : isBlank c!"[f1]" = .ok false := by decide +kernel

-- not_blank
example : isBlank c!"[g1]" = .ok false := by decide +kernel

-- not_blank
example : isBlank c!"[hc41]" = .ok false := by decide +kernel

-- not_blank
example : isBlank c!"[ms1]" = .ok false := by decide +kernel

-- not_blank
example : isBlank c!"[/ms1]" = .ok false := by decide +kernel

-- not_blank
example : isBlank c!"[mvcl100,1,10,Text]" = .ok false := by decide +kernel

-- text_split
example : textSpans c!"ABC[nl]DEF" = .ok [c!"ABC", c!"DEF"] := by decide +kernel

-- text_split
example : textSpans c!"ABC[np]DEF" = .ok [c!"ABC", c!"DEF"] := by decide +kernel

-- text_split
example : textSpans c!"ABC[jl4]DEF" = .ok [c!"ABC", c!"DEF"] := by decide +kernel

-- text_split
example : textSpans c!"[fo3]ABC DEF" = .ok [c!"ABC DEF"] := by decide +kernel

-- text_split
example : textSpans c!"[cf255,255,255]ABC" = .ok [c!"ABC"] := by decide +kernel

-- text_split
example : textSpans c!"ABC[sc2]DEF" = .ok [c!"ABC", c!"DEF"] := by decide +kernel

-- text_split
example : textSpans c!"DEF[tr1,1,40,20]ABC" = .ok [c!"DEF", c!"ABC"] := by decide +kernel

-- text_split
example : textSpans c!"ABC[x]DEF" = .ok [c!"ABC", c!"DEF"] := by decide +kernel

-- text_join
example : joinText c!"ABC[nl]DEF" c!" " = .ok c!"ABC DEF" := by decide +kernel

-- text_join
example : joinText c!"ABC[np]DEF" c!" " = .ok c!"ABC DEF" := by decide +kernel

-- text_join
example : joinText c!"ABC[jl4]DEF" c!" " = .ok c!"ABC DEF" := by decide +kernel

-- text_join
example : joinText c!"[fo3]ABC DEF" c!" " = .ok c!"ABC DEF" := by decide +kernel

-- text_join
example : joinText c!"[cf255,255,255]ABC" c!" " = .ok c!"ABC" := by decide +kernel

-- text_join
example : joinText c!"ABC[sc2]DEF" c!" " = .ok c!"ABC DEF" := by decide +kernel

-- text_join
example : joinText c!"DEF[tr1,1,40,20]ABC" c!" " = .ok c!"DEF ABC" := by decide +kernel

-- text_join
example : joinText c!"ABC[x]DEF" c!"_" = .ok c!"ABC_DEF" := by decide +kernel

-- split_values
example : slices c!"TEST[nl]TEXT" = [c!"TEST", c!"[nl]", c!"TEXT"] := by decide +kernel

-- split_values
example : slices c!"[tr1,1,0,0]TEXT" = [c!"[tr1,1,0,0]", c!"TEXT"] := by decide +kernel

-- split_invalid
example : slices c!"[ttS123][vsa][slow45,10][feedL123][tz1,2,3]" = [c!"[ttS123]", c!"[vsa]", c!"[slow45,10]", c!"[feedL123]", c!"[tz1,2,3]"] := by decide +kernel

end Ntcip.Tests
