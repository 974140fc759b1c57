import Verif.Conform.Types
/-!
# Tests of the repository, run in the model (generated by tools/conformance)

The number in front of each test is its line in jscandec_test.go.
-/
namespace Verif.Conform
open Verif.Model Verif.Spec

/- TestDecodeFloat32, jscandec_test.go:381 -/
example : session 4 ⟨false, false, false⟩ [
    /- 382 -/ ⟨b!"null", zeros 4, .ok (.f 0)⟩,
    /- 383 -/ ⟨b!"0", zeros 4, .ok (.f 0)⟩,
    /- 384 -/ ⟨b!"1", zeros 4, .ok (.f 1065353216)⟩,
    /- 385 -/ ⟨b!"-1", zeros 4, .ok (.f 3212836864)⟩,
    /- 386 -/ ⟨b!"-16777215", zeros 4, .ok (.f 3414163455)⟩,
    /- 387 -/ ⟨b!"16777215", zeros 4, .ok (.f 1266679807)⟩,
    /- 388 -/ ⟨b!"3.1415927", zeros 4, .ok (.f 1078530011)⟩,
    /- 389 -/ ⟨b!"-3.1415927", zeros 4, .ok (.f 3226013659)⟩,
    /- 390 -/ ⟨b!"3.4028235e38", zeros 4, .ok (.f 2139095039)⟩,
    /- 391 -/ ⟨b!"1.4e-45", zeros 4, .ok (.f 1)⟩,
    /- 392 -/ ⟨b!"3.4e38", zeros 4, .ok (.f 2139081118)⟩,
    /- 393 -/ ⟨b!"-3.4e38", zeros 4, .ok (.f 4286564766)⟩,
    /- 394 -/ ⟨b!"6.022e23", zeros 4, .ok (.f 1727990440)⟩,
    /- 396 -/ ⟨b!"3.5e38", zeros 4, .err 0 (.parse 2)⟩,
    /- 402 -/ ⟨b!"\"text\"", zeros 4, .err 0 (.unexpectedValue)⟩,
    /- 403 -/ ⟨b!"true", zeros 4, .err 0 (.unexpectedValue)⟩,
    /- 404 -/ ⟨b!"false", zeros 4, .err 0 (.unexpectedValue)⟩,
    /- 405 -/ ⟨b!"[]", zeros 4, .err 0 (.unexpectedValue)⟩] = true := by decide +kernel

/- TestDecodeInt64, jscandec_test.go:466 -/
example : session 7 ⟨false, false, false⟩ [
    /- 467 -/ ⟨b!"null", zeros 8, .ok (.i (0))⟩,
    /- 468 -/ ⟨b!"0", zeros 8, .ok (.i (0))⟩,
    /- 469 -/ ⟨b!"1", zeros 8, .ok (.i (1))⟩,
    /- 470 -/ ⟨b!"-1", zeros 8, .ok (.i (-1))⟩,
    /- 471 -/ ⟨b!"-2147483648", zeros 8, .ok (.i (-2147483648))⟩,
    /- 472 -/ ⟨b!"2147483647", zeros 8, .ok (.i (2147483647))⟩,
    /- 473 -/ ⟨b!"-9223372036854775808", zeros 8, .ok (.i (-9223372036854775808))⟩,
    /- 474 -/ ⟨b!"9223372036854775807", zeros 8, .ok (.i (9223372036854775807))⟩,
    /- 476 -/ ⟨b!"9223372036854775808", zeros 8, .err 0 (.integerOverflow)⟩,
    /- 477 -/ ⟨b!"-9223372036854775809", zeros 8, .err 0 (.integerOverflow)⟩,
    /- 479 -/ ⟨b!"\"text\"", zeros 8, .err 0 (.unexpectedValue)⟩,
    /- 480 -/ ⟨b!"true", zeros 8, .err 0 (.unexpectedValue)⟩,
    /- 481 -/ ⟨b!"false", zeros 8, .err 0 (.unexpectedValue)⟩,
    /- 482 -/ ⟨b!"[]", zeros 8, .err 0 (.unexpectedValue)⟩] = true := by decide +kernel

/- TestDecodeNull, jscandec_test.go:600 -/
example : session 11 ⟨false, false, false⟩ [
    /- 600 -/ ⟨b!"null", zeros 2, .ok (.i (0))⟩] = true := by decide +kernel

/- TestDecodeNull, jscandec_test.go:606 -/
example : session 8 ⟨false, false, false⟩ [
    /- 606 -/ ⟨b!"null", zeros 4, .ok (.i (0))⟩] = true := by decide +kernel

/- TestDecodeNull, jscandec_test.go:644 -/
example : session 28 ⟨false, false, false⟩ [
    /- 644 -/ ⟨b!"[null]", zeros 24, .ok (.l [.f 0])⟩] = true := by decide +kernel

/- TestDecodeString, jscandec_test.go:649 -/
example : session 14 ⟨false, false, false⟩ [
    /- 650 -/ ⟨b!"null", zeros 16, .ok (.s [])⟩,
    /- 651 -/ ⟨b!"\"\"", zeros 16, .ok (.s [])⟩,
    /- 652 -/ ⟨b!"\"   \"", zeros 16, .ok (.s b!"   ")⟩,
    /- 653 -/ ⟨b!"\"Hello World!\"", zeros 16, .ok (.s b!"Hello World!")⟩,
    /- 654 -/ ⟨[34, 209, 142, 208, 189, 208, 184, 208, 186, 208, 190, 208, 180, 45, 208, 182, 208, 181, 208, 182, 34], zeros 16, .ok (.s [209, 142, 208, 189, 208, 184, 208, 186, 208, 190, 208, 180, 45, 208, 182, 208, 181, 208, 182])⟩,
    /- 655 -/ ⟨b!"\"\\\"\\\\\\\"\"", zeros 16, .ok (.s b!"\"\\\"")⟩,
    /- 656 -/ ⟨b!"\"\\u0436\\u0448\\u0444\\u30C4\"", zeros 16, .ok (.s [208, 182, 209, 136, 209, 132, 227, 131, 132])⟩] = true := by decide +kernel

/- TestDecode2DSliceBool, jscandec_test.go:661 -/
example : session 29 ⟨false, false, false⟩ [
    /- 662 -/ ⟨b!"null", zeros 24, .ok (.nil)⟩,
    /- 663 -/ ⟨b!"[[true],[false, true],[ ]]", zeros 24, .ok (.l [.l [.b true], .l [.b false, .b true], .l []])⟩,
    /- 664 -/ ⟨b!"[[],[false]]", zeros 24, .ok (.l [.l [], .l [.b false]])⟩,
    /- 665 -/ ⟨b!"[[],[]]", zeros 24, .ok (.l [.l [], .l []])⟩,
    /- 666 -/ ⟨b!"[]", zeros 24, .ok (.l [])⟩] = true := by decide +kernel

/- TestDecodeSliceInt32, jscandec_test.go:797 -/
example : session 20 ⟨false, false, false⟩ [
    /- 798 -/ ⟨b!"[ 1, -23, 123 ]", zeros 24, .ok (.l [.i (1), .i (-23), .i (123)])⟩,
    /- 799 -/ ⟨b!"[2147483647]", zeros 24, .ok (.l [.i (2147483647)])⟩,
    /- 800 -/ ⟨b!"[-2147483648]", zeros 24, .ok (.l [.i (-2147483648)])⟩,
    /- 801 -/ ⟨b!"[ 1 ]", zeros 24, .ok (.l [.i (1)])⟩,
    /- 802 -/ ⟨b!"[]", zeros 24, .ok (.l [])⟩,
    /- 803 -/ ⟨b!"null", zeros 24, .ok (.nil)⟩,
    /- 804 -/ ⟨b!"[ null ]", zeros 24, .ok (.l [.i (0)])⟩,
    /- 805 -/ ⟨b!"[ null, 1, null ]", zeros 24, .ok (.l [.i (0), .i (1), .i (0)])⟩,
    /- 807 -/ ⟨b!"[1,2,3]", seg 24 (.slice 3 3 (seg 4 (.int (10)) ++ seg 4 (.int (20)) ++ seg 4 (.int (30)))), .ok (.l [.i (1), .i (2), .i (3)])⟩,
    /- 811 -/ ⟨b!"[1,2,3]", zeros 24, .ok (.l [.i (1), .i (2), .i (3)])⟩,
    /- 815 -/ ⟨b!"[1,2,3]", seg 24 (.slice 2 2 (seg 4 (.int (10)) ++ seg 4 (.int (20)))), .ok (.l [.i (1), .i (2), .i (3)])⟩,
    /- 819 -/ ⟨b!"[1,2,3]", seg 24 (.slice 4 4 (seg 4 (.int (10)) ++ seg 4 (.int (20)) ++ seg 4 (.int (30)) ++ seg 4 (.int (40)))), .ok (.l [.i (1), .i (2), .i (3)])⟩,
    /- 824 -/ ⟨b!"[2147483648]", zeros 24, .err 1 (.integerOverflow)⟩,
    /- 826 -/ ⟨b!"[-2147483649]", zeros 24, .err 1 (.integerOverflow)⟩,
    /- 828 -/ ⟨b!"{}", zeros 24, .err 0 (.unexpectedValue)⟩,
    /- 830 -/ ⟨b!"[1,3.14]", zeros 24, .err 3 (.unexpectedValue)⟩,
    /- 832 -/ ⟨b!"[1,\"nope\"]", zeros 24, .err 3 (.unexpectedValue)⟩] = true := by decide +kernel

/- TestDecodeSliceUint8, jscandec_test.go:923 -/
example : session 23 ⟨false, false, false⟩ [
    /- 924 -/ ⟨b!"[ 1, 23, 123 ]", zeros 24, .ok (.l [.i (1), .i (23), .i (123)])⟩,
    /- 925 -/ ⟨b!"[255]", zeros 24, .ok (.l [.i (255)])⟩,
    /- 926 -/ ⟨b!"[ 1 ]", zeros 24, .ok (.l [.i (1)])⟩,
    /- 927 -/ ⟨b!"[]", zeros 24, .ok (.l [])⟩,
    /- 928 -/ ⟨b!"null", zeros 24, .ok (.nil)⟩,
    /- 929 -/ ⟨b!"[ null ]", zeros 24, .ok (.l [.i (0)])⟩,
    /- 930 -/ ⟨b!"[ null, 1, null ]", zeros 24, .ok (.l [.i (0), .i (1), .i (0)])⟩,
    /- 932 -/ ⟨b!"[1,2,3]", seg 24 (.slice 3 3 (seg 1 (.int (10)) ++ seg 1 (.int (20)) ++ seg 1 (.int (30)))), .ok (.l [.i (1), .i (2), .i (3)])⟩,
    /- 936 -/ ⟨b!"[1,2,3]", zeros 24, .ok (.l [.i (1), .i (2), .i (3)])⟩,
    /- 940 -/ ⟨b!"[1,2,3]", seg 24 (.slice 2 2 (seg 1 (.int (10)) ++ seg 1 (.int (20)))), .ok (.l [.i (1), .i (2), .i (3)])⟩,
    /- 944 -/ ⟨b!"[1,2,3]", seg 24 (.slice 4 4 (seg 1 (.int (10)) ++ seg 1 (.int (20)) ++ seg 1 (.int (30)) ++ seg 1 (.int (40)))), .ok (.l [.i (1), .i (2), .i (3)])⟩,
    /- 949 -/ ⟨b!"[-1]", zeros 24, .err 1 (.unexpectedValue)⟩,
    /- 951 -/ ⟨b!"[256]", zeros 24, .err 1 (.integerOverflow)⟩,
    /- 953 -/ ⟨b!"{}", zeros 24, .err 0 (.unexpectedValue)⟩,
    /- 955 -/ ⟨b!"[1,3.14]", zeros 24, .err 3 (.unexpectedValue)⟩,
    /- 957 -/ ⟨b!"[1,\"nope\"]", zeros 24, .err 3 (.unexpectedValue)⟩] = true := by decide +kernel

/- TestDecodeSliceFloat32, jscandec_test.go:1174 -/
example : session 27 ⟨false, false, false⟩ [
    /- 1175 -/ ⟨b!"[0, 3.14, 2.5]", zeros 24, .ok (.l [.f 0, .f 1078523331, .f 1075838976])⟩,
    /- 1176 -/ ⟨b!"null", zeros 24, .ok (.nil)⟩,
    /- 1177 -/ ⟨b!"[]", zeros 24, .ok (.l [])⟩,
    /- 1178 -/ ⟨b!"[0]", zeros 24, .ok (.l [.f 0])⟩,
    /- 1179 -/ ⟨b!"[1]", zeros 24, .ok (.l [.f 1065353216])⟩,
    /- 1180 -/ ⟨b!"[-1]", zeros 24, .ok (.l [.f 3212836864])⟩,
    /- 1181 -/ ⟨b!"[-16777215]", zeros 24, .ok (.l [.f 3414163455])⟩,
    /- 1182 -/ ⟨b!"[16777215]", zeros 24, .ok (.l [.f 1266679807])⟩,
    /- 1183 -/ ⟨b!"[3.1415927]", zeros 24, .ok (.l [.f 1078530011])⟩,
    /- 1184 -/ ⟨b!"[-3.1415927]", zeros 24, .ok (.l [.f 3226013659])⟩,
    /- 1185 -/ ⟨b!"[3.4028235e38]", zeros 24, .ok (.l [.f 2139095039])⟩,
    /- 1186 -/ ⟨b!"[1.4e-45]", zeros 24, .ok (.l [.f 1])⟩,
    /- 1187 -/ ⟨b!"[3.4e38]", zeros 24, .ok (.l [.f 2139081118])⟩,
    /- 1188 -/ ⟨b!"[-3.4e38]", zeros 24, .ok (.l [.f 4286564766])⟩,
    /- 1189 -/ ⟨b!"[6.022e23]", zeros 24, .ok (.l [.f 1727990440])⟩,
    /- 1191 -/ ⟨b!"[1.1, 2.2, 3.3]", seg 24 (.slice 3 3 (seg 4 (.flt 1092721050) ++ seg 4 (.flt 1101109658) ++ seg 4 (.flt 1106404966))), .ok (.l [.f 1066192077, .f 1074580685, .f 1079194419])⟩,
    /- 1195 -/ ⟨b!"[1.1, 2.2, 3.3]", zeros 24, .ok (.l [.f 1066192077, .f 1074580685, .f 1079194419])⟩,
    /- 1199 -/ ⟨b!"[1.1, 2.2, 3.3]", seg 24 (.slice 2 2 (seg 4 (.flt 1092721050) ++ seg 4 (.flt 1101109658))), .ok (.l [.f 1066192077, .f 1074580685, .f 1079194419])⟩,
    /- 1203 -/ ⟨b!"[1.1, 2.2, 3.3]", seg 24 (.slice 4 4 (seg 4 (.flt 1092721050) ++ seg 4 (.flt 1101109658) ++ seg 4 (.flt 1106404966) ++ seg 4 (.flt 1109498266))), .ok (.l [.f 1066192077, .f 1074580685, .f 1079194419])⟩,
    /- 1208 -/ ⟨b!"[3.5e38]", zeros 24, .err 1 (.parse 2)⟩,
    /- 1214 -/ ⟨b!"\"text\"", zeros 24, .err 0 (.unexpectedValue)⟩,
    /- 1216 -/ ⟨b!"true", zeros 24, .err 0 (.unexpectedValue)⟩,
    /- 1218 -/ ⟨b!"false", zeros 24, .err 0 (.unexpectedValue)⟩,
    /- 1220 -/ ⟨b!"{}", zeros 24, .err 0 (.unexpectedValue)⟩,
    /- 1222 -/ ⟨b!"[1,[]]", zeros 24, .err 3 (.unexpectedValue)⟩,
    /- 1224 -/ ⟨b!"[1,\"nope\"]", zeros 24, .err 3 (.unexpectedValue)⟩] = true := by decide +kernel

/- TestDecode2DSliceInt, jscandec_test.go:1296 -/
example : session 30 ⟨false, false, false⟩ [
    /- 1297 -/ ⟨b!"[[0],[12, 123],[ ]]", zeros 24, .ok (.l [.l [.i (0)], .l [.i (12), .i (123)], .l []])⟩,
    /- 1298 -/ ⟨b!"[[],[-12345678]]", zeros 24, .ok (.l [.l [], .l [.i (-12345678)]])⟩,
    /- 1299 -/ ⟨b!"[[],[]]", zeros 24, .ok (.l [.l [], .l []])⟩,
    /- 1300 -/ ⟨b!"[]", zeros 24, .ok (.l [])⟩,
    /- 1302 -/ ⟨b!"[ [1], [], [3] ]", seg 24 (.slice 3 3 (seg 24 (.slice 1 1 (seg 8 (.int (10)))) ++ seg 24 (.slice 1 1 (seg 8 (.int (20)))) ++ seg 24 (.slice 1 1 (seg 8 (.int (30)))))), .ok (.l [.l [.i (1)], .l [], .l [.i (3)]])⟩,
    /- 1306 -/ ⟨b!"[ [1], [], [3] ]", zeros 24, .ok (.l [.l [.i (1)], .l [], .l [.i (3)]])⟩,
    /- 1310 -/ ⟨b!"[ [1], [], [3] ]", seg 24 (.slice 2 2 (seg 24 (.slice 1 1 (seg 8 (.int (10)))) ++ seg 24 (.slice 1 1 (seg 8 (.int (20)))))), .ok (.l [.l [.i (1)], .l [], .l [.i (3)]])⟩,
    /- 1314 -/ ⟨b!"[ [1], [], [3] ]", seg 24 (.slice 4 4 (seg 24 (.slice 1 1 (seg 8 (.int (10)))) ++ seg 24 (.slice 1 1 (seg 8 (.int (20)))) ++ seg 24 (.slice 1 1 (seg 8 (.int (30)))) ++ seg 24 (.slice 1 1 (seg 8 (.int (40)))))), .ok (.l [.l [.i (1)], .l [], .l [.i (3)]])⟩] = true := by decide +kernel

/- TestDecodeArrayLen02D, jscandec_test.go:1580 -/
example : session 43 ⟨false, false, false⟩ [
    /- 1581 -/ ⟨b!"null", zeros 0, .ok (.l [])⟩,
    /- 1582 -/ ⟨b!"[]", zeros 0, .ok (.l [])⟩,
    /- 1583 -/ ⟨b!"[1]", zeros 0, .ok (.l [])⟩,
    /- 1584 -/ ⟨b!"[{}]", zeros 0, .ok (.l [])⟩,
    /- 1585 -/ ⟨b!"[false,true,{},{\"x\":\"y\"},[],null,42,3.14]", zeros 0, .ok (.l [])⟩,
    /- 1588 -/ ⟨b!"true", zeros 0, .err 0 (.unexpectedValue)⟩,
    /- 1590 -/ ⟨b!"false", zeros 0, .err 0 (.unexpectedValue)⟩,
    /- 1592 -/ ⟨b!"1", zeros 0, .err 0 (.unexpectedValue)⟩,
    /- 1594 -/ ⟨b!"3.14", zeros 0, .err 0 (.unexpectedValue)⟩,
    /- 1596 -/ ⟨b!"\"text\"", zeros 0, .err 0 (.unexpectedValue)⟩,
    /- 1598 -/ ⟨b!"{}", zeros 0, .err 0 (.unexpectedValue)⟩,
    /- 1600 -/ ⟨b!"{\"x\":0}", zeros 0, .err 0 (.unexpectedValue)⟩] = true := by decide +kernel

/- TestDecodeStructRecursiveMap, jscandec_test.go:1984 -/
example : session 52 ⟨false, false, false⟩ [
    /- 1985 -/ ⟨b!"null", zeros 40, .ok (.l [.s [], .s [], .nil])⟩,
    /- 1986 -/ ⟨b!"{}", zeros 40, .ok (.l [.s [], .s [], .nil])⟩,
    /- 1987 -/ ⟨b!"{\"id\":\"root\"}", zeros 40, .ok (.l [.s b!"root", .s [], .nil])⟩,
    /- 1988 -/ ⟨b!"{\"id\":\"root\",\"recurse\":{\"L2\": {\"id\":\"level2\", \"name\": \"Level 2\"}}}", zeros 40, .ok (.l [.s b!"root", .s [], .m [(.s b!"L2", .l [.s b!"level2", .s b!"Level 2", .nil])]])⟩,
    /- 1997 -/ ⟨[123, 10, 9, 9, 9, 34, 105, 100, 34, 58, 32, 34, 114, 111, 111, 116, 34, 44, 10, 9, 9, 9, 34, 114, 101, 99, 117, 114, 115, 101, 34, 58, 32, 123, 34, 76, 50, 34, 58, 32, 123, 10, 9, 9, 9, 9, 34, 105, 100, 34, 58, 32, 34, 108, 101, 118, 101, 108, 50, 34, 44, 10, 9, 9, 9, 9, 34, 114, 101, 99, 117, 114, 115, 101, 34, 58, 32, 123, 34, 76, 51, 34, 58, 32, 123, 10, 9, 9, 9, 9, 9, 34, 105, 100, 34, 58, 32, 34, 108, 101, 118, 101, 108, 51, 34, 10, 9, 9, 9, 9, 125, 125, 10, 9, 9, 9, 125, 125, 10, 9, 9, 125], zeros 40, .ok (.l [.s b!"root", .s [], .m [(.s b!"L2", .l [.s b!"level2", .s [], .m [(.s b!"L3", .l [.s b!"level3", .s [], .nil])]])]])⟩,
    /- 2018 -/ ⟨[123, 10, 9, 9, 9, 34, 114, 101, 99, 117, 114, 115, 101, 34, 58, 32, 123, 34, 76, 50, 34, 58, 32, 123, 10, 9, 9, 9, 9, 34, 114, 101, 99, 117, 114, 115, 101, 34, 58, 32, 123, 34, 76, 51, 34, 58, 32, 123, 10, 9, 9, 9, 9, 9, 34, 105, 100, 34, 58, 32, 34, 108, 101, 118, 101, 108, 51, 34, 10, 9, 9, 9, 9, 125, 125, 44, 10, 9, 9, 9, 9, 34, 105, 100, 34, 58, 32, 34, 108, 101, 118, 101, 108, 50, 34, 10, 9, 9, 9, 125, 125, 44, 10, 9, 9, 9, 34, 105, 100, 34, 58, 32, 34, 114, 111, 111, 116, 34, 10, 9, 9, 125], zeros 40, .ok (.l [.s b!"root", .s [], .m [(.s b!"L2", .l [.s b!"level2", .s [], .m [(.s b!"L3", .l [.s b!"level3", .s [], .nil])]])]])⟩,
    /- 2035 -/ ⟨[123, 10, 9, 9, 9, 34, 114, 101, 99, 117, 114, 115, 101, 34, 58, 32, 123, 34, 69, 34, 58, 32, 123, 10, 9, 9, 9, 9, 34, 114, 101, 99, 117, 114, 115, 101, 34, 58, 32, 123, 34, 69, 50, 34, 58, 32, 123, 125, 125, 10, 9, 9, 9, 125, 125, 10, 9, 9, 125], zeros 40, .ok (.l [.s [], .s [], .m [(.s b!"E", .l [.s [], .s [], .m [(.s b!"E2", .l [.s [], .s [], .nil])]])]])⟩,
    /- 2046 -/ ⟨[123, 10, 9, 9, 9, 34, 105, 100, 34, 58, 32, 34, 114, 111, 111, 116, 34, 44, 10, 9, 9, 9, 34, 114, 101, 99, 117, 114, 115, 101, 34, 58, 32, 110, 117, 108, 108, 10, 9, 9, 125], zeros 40, .ok (.l [.s b!"root", .s [], .nil])⟩,
    /- 2052 -/ ⟨[123, 10, 9, 9, 9, 34, 105, 100, 34, 58, 32, 34, 114, 111, 111, 116, 34, 44, 10, 9, 9, 9, 34, 114, 101, 99, 117, 114, 115, 101, 34, 58, 32, 123, 125, 10, 9, 9, 125], zeros 40, .ok (.l [.s b!"root", .s [], .m []])⟩,
    /- 2058 -/ ⟨[123, 10, 9, 9, 9, 34, 105, 100, 34, 58, 32, 34, 114, 111, 111, 116, 34, 44, 10, 9, 9, 9, 34, 114, 101, 99, 117, 114, 115, 101, 34, 58, 32, 123, 34, 76, 50, 34, 58, 32, 123, 10, 9, 9, 9, 9, 34, 105, 100, 34, 58, 34, 108, 101, 118, 101, 108, 50, 34, 44, 10, 9, 9, 9, 9, 34, 114, 101, 99, 117, 114, 115, 101, 34, 58, 32, 110, 117, 108, 108, 10, 9, 9, 9, 125, 125, 10, 9, 9, 125], zeros 40, .ok (.l [.s b!"root", .s [], .m [(.s b!"L2", .l [.s b!"level2", .s [], .nil])]])⟩,
    /- 2071 -/ ⟨[123, 10, 9, 9, 9, 34, 105, 100, 34, 58, 32, 34, 114, 111, 111, 116, 34, 44, 10, 9, 9, 9, 34, 114, 101, 99, 117, 114, 115, 101, 34, 58, 32, 123, 34, 76, 50, 34, 58, 32, 123, 10, 9, 9, 9, 9, 34, 105, 100, 34, 58, 34, 108, 101, 118, 101, 108, 50, 34, 44, 10, 9, 9, 9, 9, 34, 114, 101, 99, 117, 114, 115, 101, 34, 58, 32, 123, 34, 76, 51, 34, 58, 32, 123, 125, 125, 10, 9, 9, 9, 125, 125, 10, 9, 9, 125], zeros 40, .ok (.l [.s b!"root", .s [], .m [(.s b!"L2", .l [.s b!"level2", .s [], .m [(.s b!"L3", .l [.s [], .s [], .nil])]])]])⟩,
    /- 2086 -/ ⟨[123, 10, 9, 9, 9, 34, 114, 101, 99, 117, 114, 115, 101, 34, 58, 32, 123, 34, 76, 50, 34, 58, 32, 123, 10, 9, 9, 9, 9, 34, 114, 101, 99, 117, 114, 115, 101, 34, 58, 32, 123, 34, 76, 51, 34, 58, 32, 123, 10, 9, 9, 9, 9, 9, 34, 117, 110, 107, 110, 111, 119, 110, 34, 58, 91, 34, 111, 107, 97, 121, 34, 93, 10, 9, 9, 9, 9, 125, 125, 10, 9, 9, 9, 125, 125, 10, 9, 9, 125], zeros 40, .ok (.l [.s [], .s [], .m [(.s b!"L2", .l [.s [], .s [], .m [(.s b!"L3", .l [.s [], .s [], .nil])]])]])⟩,
    /- 2101 -/ ⟨[123, 10, 9, 9, 9, 34, 82, 69, 67, 85, 82, 83, 69, 34, 58, 32, 123, 34, 76, 50, 34, 58, 32, 123, 10, 9, 9, 9, 9, 34, 82, 69, 67, 85, 82, 83, 69, 34, 58, 32, 123, 34, 76, 51, 34, 58, 32, 123, 10, 9, 9, 9, 9, 9, 34, 73, 68, 34, 58, 32, 34, 108, 101, 118, 101, 108, 51, 34, 10, 9, 9, 9, 9, 125, 125, 44, 10, 9, 9, 9, 9, 34, 73, 68, 34, 58, 32, 34, 108, 101, 118, 101, 108, 50, 34, 10, 9, 9, 9, 125, 125, 44, 10, 9, 9, 9, 34, 73, 68, 34, 58, 32, 34, 114, 111, 111, 116, 34, 10, 9, 9, 125], zeros 40, .ok (.l [.s b!"root", .s [], .m [(.s b!"L2", .l [.s b!"level2", .s [], .m [(.s b!"L3", .l [.s b!"level3", .s [], .nil])]])]])⟩,
    /- 2119 -/ ⟨b!"{\"name\":\"Root\", \"recurse\":{\"L2\": {\"name\": \"L2\"}}}", (seg 16 (.str ⟨b!"root", false⟩)) ++ (zeros 16) ++ (seg 8 (.map [(.str ⟨b!"L2", false⟩, (seg 16 (.str ⟨b!"level2", false⟩)) ++ (zeros 16) ++ (zeros 8))])), .ok (.l [.s b!"root", .s b!"Root", .m [(.s b!"L2", .l [.s [], .s b!"L2", .nil])]])⟩,
    /- 2134 -/ ⟨b!"{\"name\":\"Root\", \"recurse\":null}", (seg 16 (.str ⟨b!"root", false⟩)) ++ (zeros 16) ++ (seg 8 (.map [(.str ⟨b!"L2", false⟩, (seg 16 (.str ⟨b!"level2", false⟩)) ++ (zeros 16) ++ (zeros 8))])), .ok (.l [.s b!"root", .s b!"Root", .nil])⟩,
    /- 2143 -/ ⟨b!"{\"name\":\"Root\", \"recurse\":{\"L2\": {}}}", (seg 16 (.str ⟨b!"root", false⟩)) ++ (zeros 16) ++ (seg 8 (.map [(.str ⟨b!"L2", false⟩, (seg 16 (.str ⟨b!"level2", false⟩)) ++ (zeros 16) ++ (zeros 8))])), .ok (.l [.s b!"root", .s b!"Root", .m [(.s b!"L2", .l [.s [], .s [], .nil])]])⟩,
    /- 2154 -/ ⟨b!"{\"name\":\"Root\", \"recurse\":{\"L2\": {\"fuzz\":\"inexistent\"}}}", (seg 16 (.str ⟨b!"root", false⟩)) ++ (zeros 16) ++ (seg 8 (.map [(.str ⟨b!"L2", false⟩, (seg 16 (.str ⟨b!"level2", false⟩)) ++ (zeros 16) ++ (zeros 8))])), .ok (.l [.s b!"root", .s b!"Root", .m [(.s b!"L2", .l [.s [], .s [], .nil])]])⟩,
    /- 2165 -/ ⟨b!"{\"id\":\"root\",\"recurse\":[]}", zeros 40, .err 23 (.unexpectedValue)⟩,
    /- 2167 -/ ⟨b!"{\"id\":\"root\",\"recurse\":{\"L2\": {\"id\":\"2\",\"recurse\":\"x\"}}}", zeros 40, .err 50 (.unexpectedValue)⟩,
    /- 2170 -/ ⟨b!"1", zeros 40, .err 0 (.unexpectedValue)⟩,
    /- 2172 -/ ⟨b!"[]", zeros 40, .err 0 (.unexpectedValue)⟩,
    /- 2174 -/ ⟨b!"\"text\"", zeros 40, .err 0 (.unexpectedValue)⟩] = true := by decide +kernel

/- TestDecodeStringTagInt32, jscandec_test.go:2391 -/
example : session 63 ⟨false, false, false⟩ [
    /- 2392 -/ ⟨b!"{}", zeros 4, .ok (.l [.i (0)])⟩,
    /- 2393 -/ ⟨b!"null", zeros 4, .ok (.l [.i (0)])⟩,
    /- 2394 -/ ⟨b!"{\"int32\":\"-2147483648\"}", zeros 4, .ok (.l [.i (-2147483648)])⟩,
    /- 2395 -/ ⟨b!"{\"int32\":\"2147483647\"}", zeros 4, .ok (.l [.i (2147483647)])⟩,
    /- 2397 -/ ⟨b!"{\"int32\":\"2147483648\"}", zeros 4, .err 9 (.unexpectedValue)⟩,
    /- 2399 -/ ⟨b!"{\"int32\":\"-2147483649\"}", zeros 4, .err 9 (.unexpectedValue)⟩,
    /- 2401 -/ ⟨b!"{\"int32\":\"3.14\"}", zeros 4, .err 9 (.unexpectedValue)⟩,
    /- 2403 -/ ⟨b!"{\"int32\":\"3e2\"}", zeros 4, .err 9 (.unexpectedValue)⟩] = true := by decide +kernel

/- TestDecodeStringTagUint32, jscandec_test.go:2485 -/
example : session 68 ⟨false, false, false⟩ [
    /- 2486 -/ ⟨b!"{}", zeros 4, .ok (.l [.i (0)])⟩,
    /- 2487 -/ ⟨b!"null", zeros 4, .ok (.l [.i (0)])⟩,
    /- 2488 -/ ⟨b!"{\"uint32\":\"0\"}", zeros 4, .ok (.l [.i (0)])⟩,
    /- 2489 -/ ⟨b!"{\"uint32\":\"4294967295\"}", zeros 4, .ok (.l [.i (4294967295)])⟩,
    /- 2492 -/ ⟨b!"{\"uint32\":\"4294967296\"}", zeros 4, .err 10 (.unexpectedValue)⟩,
    /- 2494 -/ ⟨b!"{\"uint32\":\"-1\"}", zeros 4, .err 10 (.unexpectedValue)⟩,
    /- 2496 -/ ⟨b!"{\"uint32\":\"3.14\"}", zeros 4, .err 10 (.unexpectedValue)⟩,
    /- 2498 -/ ⟨b!"{\"uint32\":\"3e2\"}", zeros 4, .err 10 (.unexpectedValue)⟩] = true := by decide +kernel

/- TestDecodePointerAny, jscandec_test.go:2677 -/
example : session 79 ⟨false, false, false⟩ [
    /- 2678 -/ ⟨b!"[1]", zeros 8, .ok (.p (.l [.f 4607182418800017408]))⟩,
    /- 2679 -/ ⟨b!"\"text\"", zeros 8, .ok (.p (.s b!"text"))⟩,
    /- 2680 -/ ⟨b!"[1]", zeros 8, .ok (.p (.l [.f 4607182418800017408]))⟩,
    /- 2681 -/ ⟨b!"{\"foo\":1}", zeros 8, .ok (.p (.m [(.s b!"foo", .f 4607182418800017408)]))⟩] = true := by decide +kernel

/- TestDecodeMapIntToString, jscandec_test.go:2794 -/
example : session 85 ⟨false, false, false⟩ [
    /- 2795 -/ ⟨b!"{}", zeros 8, .ok (.m [])⟩,
    /- 2796 -/ ⟨b!"null", zeros 8, .ok (.nil)⟩,
    /- 2797 -/ ⟨b!"{\"0\":0, \"42\":42, \"-123456789\":123456789}", zeros 8, .ok (.m [(.i (0), .i (0)), (.i (42), .i (42)), (.i (-123456789), .i (123456789))])⟩,
    /- 2800 -/ ⟨b!"{\"1\": 42}", seg 8 (.map [(.int (1), seg 8 (.int (10))), (.int (2), seg 8 (.int (20)))]), .ok (.m [(.i (1), .i (42)), (.i (2), .i (20))])⟩,
    /- 2804 -/ ⟨b!"{\"2\": 42}", seg 8 (.map [(.int (1), seg 8 (.int (10))), (.int (2), seg 8 (.int (20)))]), .ok (.m [(.i (1), .i (10)), (.i (2), .i (42))])⟩,
    /- 2808 -/ ⟨b!"{\"2\": 42, \"1\": 42, \"3\": 42}", seg 8 (.map [(.int (1), seg 8 (.int (10))), (.int (2), seg 8 (.int (20)))]), .ok (.m [(.i (1), .i (42)), (.i (2), .i (42)), (.i (3), .i (42))])⟩,
    /- 2813 -/ ⟨b!"{\"9223372036854775808\":0}", zeros 8, .err 1 (.unexpectedValue)⟩,
    /- 2815 -/ ⟨b!"{\"-9223372036854775809\":0}", zeros 8, .err 1 (.unexpectedValue)⟩,
    /- 2817 -/ ⟨b!"{\"3.14\":0}", zeros 8, .err 1 (.unexpectedValue)⟩,
    /- 2819 -/ ⟨b!"{\"3e2\":0}", zeros 8, .err 1 (.unexpectedValue)⟩,
    /- 2821 -/ ⟨b!"1", zeros 8, .err 0 (.unexpectedValue)⟩,
    /- 2823 -/ ⟨b!"\"text\"", zeros 8, .err 0 (.unexpectedValue)⟩,
    /- 2825 -/ ⟨b!"[]", zeros 8, .err 0 (.unexpectedValue)⟩] = true := by decide +kernel

/- TestDecodeMapInt32ToString, jscandec_test.go:2891 -/
example : session 88 ⟨false, false, false⟩ [
    /- 2892 -/ ⟨b!"{}", zeros 8, .ok (.m [])⟩,
    /- 2893 -/ ⟨b!"null", zeros 8, .ok (.nil)⟩,
    /- 2894 -/ ⟨[123, 34, 48, 34, 58, 48, 44, 10, 9, 9, 34, 45, 50, 49, 52, 55, 52, 56, 51, 54, 52, 56, 34, 58, 45, 50, 49, 52, 55, 52, 56, 51, 54, 52, 56, 44, 32, 34, 50, 49, 52, 55, 52, 56, 51, 54, 52, 55, 34, 58, 50, 49, 52, 55, 52, 56, 51, 54, 52, 55, 125], zeros 8, .ok (.m [(.i (0), .i (0)), (.i (-2147483648), .i (-2147483648)), (.i (2147483647), .i (2147483647))])⟩,
    /- 2898 -/ ⟨b!"{\"1\": 42}", seg 8 (.map [(.int (1), seg 8 (.int (10))), (.int (2), seg 8 (.int (20)))]), .ok (.m [(.i (1), .i (42)), (.i (2), .i (20))])⟩,
    /- 2902 -/ ⟨b!"{\"2\": 42}", seg 8 (.map [(.int (1), seg 8 (.int (10))), (.int (2), seg 8 (.int (20)))]), .ok (.m [(.i (1), .i (10)), (.i (2), .i (42))])⟩,
    /- 2906 -/ ⟨b!"{\"2\": 42, \"1\": 42, \"3\": 42}", seg 8 (.map [(.int (1), seg 8 (.int (10))), (.int (2), seg 8 (.int (20)))]), .ok (.m [(.i (1), .i (42)), (.i (2), .i (42)), (.i (3), .i (42))])⟩,
    /- 2911 -/ ⟨b!"{\"2147483648\":0}", zeros 8, .err 1 (.unexpectedValue)⟩,
    /- 2912 -/ ⟨b!"{\"-2147483649\":0}", zeros 8, .err 1 (.unexpectedValue)⟩,
    /- 2913 -/ ⟨b!"{\"3.14\":0}", zeros 8, .err 1 (.unexpectedValue)⟩,
    /- 2914 -/ ⟨b!"{\"3e2\":0}", zeros 8, .err 1 (.unexpectedValue)⟩,
    /- 2915 -/ ⟨b!"1", zeros 8, .err 0 (.unexpectedValue)⟩,
    /- 2916 -/ ⟨b!"\"text\"", zeros 8, .err 0 (.unexpectedValue)⟩,
    /- 2917 -/ ⟨b!"[]", zeros 8, .err 0 (.unexpectedValue)⟩] = true := by decide +kernel

/- TestDisableCaseInsensitiveMatchingNoTag, jscandec_test.go:3787 -/
example : session 116 ⟨false, false, true⟩ [
    /- 3791 -/ ⟨b!"{\"ID\":\"ok\"}", zeros 16, .ok (.l [.s b!"ok"])⟩,
    /- 3792 -/ ⟨b!"{\"id\":\"not ok\"}", zeros 16, .ok (.l [.s []])⟩,
    /- 3799 -/ ⟨b!"{\"Id\":\"not ok\"}", zeros 16, .ok (.l [.s []])⟩] = true := by decide +kernel

end Verif.Conform
