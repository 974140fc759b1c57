import Verif.Conform.Types
/-!
# Tests of the repository, run in the model (generated by tools/conformance)

The number in front of each test is its line in jscandec_test.go.
-/
namespace Verif.Conform
open Verif.Model Verif.Spec

/- TestDecodeBool, jscandec_test.go:235 -/
example : session 0 ⟨false, false, false⟩ [
    /- 236 -/ ⟨b!"true", zeros 1, .ok (.b true)⟩,
    /- 237 -/ ⟨b!"false", zeros 1, .ok (.b false)⟩,
    /- 238 -/ ⟨b!"null", zeros 1, .ok (.b false)⟩,
    /- 240 -/ ⟨b!"1", zeros 1, .err 0 (.unexpectedValue)⟩,
    /- 241 -/ ⟨b!"[]", zeros 1, .err 0 (.unexpectedValue)⟩,
    /- 242 -/ ⟨b!"\"text\"", zeros 1, .err 0 (.unexpectedValue)⟩] = true := by decide +kernel

/- TestDecodeAny, jscandec_test.go:246 -/
example : session 1 ⟨false, false, false⟩ [
    /- 247 -/ ⟨b!"0", zeros 16, .ok (.f 0)⟩,
    /- 248 -/ ⟨b!"42", zeros 16, .ok (.f 4631107791820423168)⟩,
    /- 249 -/ ⟨b!"3.1415", zeros 16, .ok (.f 4614256447914709615)⟩,
    /- 250 -/ ⟨b!"true", zeros 16, .ok (.b true)⟩,
    /- 251 -/ ⟨b!"false", zeros 16, .ok (.b false)⟩,
    /- 252 -/ ⟨b!"\"string\"", zeros 16, .ok (.s b!"string")⟩,
    /- 253 -/ ⟨b!"\"\\\"\\u30C4\\\"\"", zeros 16, .ok (.s [34, 227, 131, 132, 34])⟩,
    /- 254 -/ ⟨b!"null", zeros 16, .ok (.nil)⟩,
    /- 255 -/ ⟨b!"[]", zeros 16, .ok (.l [])⟩,
    /- 256 -/ ⟨b!"[0,1,2]", zeros 16, .ok (.l [.f 0, .f 4607182418800017408, .f 4611686018427387904])⟩,
    /- 257 -/ ⟨b!"[\"a\", \"b\", \"\\t\"]", zeros 16, .ok (.l [.s b!"a", .s b!"b", .s [9]])⟩,
    /- 258 -/ ⟨b!"[true, false]", zeros 16, .ok (.l [.b true, .b false])⟩,
    /- 259 -/ ⟨b!"[null, null, null]", zeros 16, .ok (.l [.nil, .nil, .nil])⟩,
    /- 260 -/ ⟨b!"{}", zeros 16, .ok (.m [])⟩,
    /- 261 -/ ⟨b!"[null, false, 42, \"x\", {}, true]", zeros 16, .ok (.l [.nil, .b false, .f 4631107791820423168, .s b!"x", .m [], .b true])⟩,
    /- 263 -/ ⟨[123, 10, 9, 9, 34, 110, 117, 109, 34, 58, 32, 32, 32, 32, 32, 32, 32, 32, 32, 52, 50, 44, 10, 9, 9, 34, 115, 116, 114, 34, 58, 32, 32, 32, 32, 32, 32, 32, 32, 32, 34, 92, 34, 116, 101, 120, 116, 92, 117, 51, 48, 67, 52, 92, 117, 48, 52, 52, 66, 92, 34, 34, 44, 10, 9, 9, 34, 98, 111, 111, 108, 95, 116, 114, 117, 101, 34, 58, 32, 32, 32, 116, 114, 117, 101, 44, 10, 9, 9, 34, 98, 111, 111, 108, 95, 102, 97, 108, 115, 101, 34, 58, 32, 32, 102, 97, 108, 115, 101, 44, 10, 9, 9, 34, 97, 114, 114, 97, 121, 95, 101, 109, 112, 116, 121, 34, 58, 32, 91, 93, 44, 10, 9, 9, 34, 97, 114, 114, 97, 121, 95, 109, 105, 120, 34, 58, 32, 32, 32, 91, 110, 117, 108, 108, 44, 32, 102, 97, 108, 115, 101, 44, 32, 52, 50, 44, 32, 34, 92, 47, 92, 114, 92, 110, 34, 44, 32, 123, 125, 44, 32, 116, 114, 117, 101, 93, 44, 10, 9, 9, 34, 110, 117, 108, 108, 34, 58, 32, 32, 32, 32, 32, 32, 32, 32, 110, 117, 108, 108, 10, 9, 125], zeros 16, .ok (.m [(.s b!"num", .f 4631107791820423168), (.s b!"str", .s [34, 116, 101, 120, 116, 227, 131, 132, 209, 139, 34]), (.s b!"bool_true", .b true), (.s b!"bool_false", .b false), (.s b!"array_empty", .l []), (.s b!"array_mix", .l [.nil, .b false, .f 4631107791820423168, .s [47, 13, 10], .m [], .b true]), (.s b!"null", .nil)])⟩,
    /- 281 -/ ⟨b!"true", seg 16 (.any (.other 0)), .ok (.b true)⟩,
    /- 285 -/ ⟨b!"42", seg 16 (.any (.other 0)), .ok (.f 4631107791820423168)⟩,
    /- 295 -/ ⟨b!"{\"id\":42,\"name\":\"John\"}", seg 16 (.any (.other 0)), .ok (.m [(.s b!"id", .f 4631107791820423168), (.s b!"name", .s b!"John")])⟩,
    /- 299 -/ ⟨b!"42", seg 16 (.any (.other 0)), .ok (.f 4631107791820423168)⟩,
    /- 308 -/ ⟨b!"[{\"name\":\"John\"}]", seg 16 (.any (.other 0)), .ok (.l [.m [(.s b!"name", .s b!"John")]])⟩,
    /- 314 -/ ⟨b!"null", seg 16 (.any (.other 0)), .ok (.nil)⟩,
    /- 327 -/ ⟨b!"1e309", zeros 16, .err 0 (.parse 2)⟩] = true := by decide +kernel

/- TestDecodeInt, jscandec_test.go:358 -/
example : session 3 ⟨false, false, false⟩ [
    /- 359 -/ ⟨b!"null", zeros 8, .ok (.i (0))⟩,
    /- 360 -/ ⟨b!"0", zeros 8, .ok (.i (0))⟩,
    /- 361 -/ ⟨b!"1", zeros 8, .ok (.i (1))⟩,
    /- 362 -/ ⟨b!"-1", zeros 8, .ok (.i (-1))⟩,
    /- 363 -/ ⟨b!"-2147483648", zeros 8, .ok (.i (-2147483648))⟩,
    /- 364 -/ ⟨b!"2147483647", zeros 8, .ok (.i (2147483647))⟩,
    /- 365 -/ ⟨b!"-9223372036854775808", zeros 8, .ok (.i (-9223372036854775808))⟩,
    /- 366 -/ ⟨b!"9223372036854775807", zeros 8, .ok (.i (9223372036854775807))⟩,
    /- 368 -/ ⟨b!"9223372036854775808", zeros 8, .err 0 (.integerOverflow)⟩,
    /- 369 -/ ⟨b!"-9223372036854775809", zeros 8, .err 0 (.integerOverflow)⟩,
    /- 371 -/ ⟨b!"\"text\"", zeros 8, .err 0 (.unexpectedValue)⟩,
    /- 372 -/ ⟨b!"true", zeros 8, .err 0 (.unexpectedValue)⟩,
    /- 373 -/ ⟨b!"false", zeros 8, .err 0 (.unexpectedValue)⟩,
    /- 377 -/ ⟨b!"[]", zeros 8, .err 0 (.unexpectedValue)⟩] = true := by decide +kernel

/- TestDecodeFloat64, jscandec_test.go:409 -/
example : session 5 ⟨false, false, false⟩ [
    /- 410 -/ ⟨b!"null", zeros 8, .ok (.f 0)⟩,
    /- 411 -/ ⟨b!"0", zeros 8, .ok (.f 0)⟩,
    /- 412 -/ ⟨b!"1", zeros 8, .ok (.f 4607182418800017408)⟩,
    /- 413 -/ ⟨b!"-1", zeros 8, .ok (.f 13830554455654793216)⟩,
    /- 414 -/ ⟨b!"1.0", zeros 8, .ok (.f 4607182418800017408)⟩,
    /- 415 -/ ⟨b!"1.000000003", zeros 8, .ok (.f 4607182418813528207)⟩,
    /- 416 -/ ⟨b!"9007199254740991", zeros 8, .ok (.f 4845873199050653695)⟩,
    /- 417 -/ ⟨b!"-9007199254740991", zeros 8, .ok (.f 14069245235905429503)⟩,
    /- 418 -/ ⟨b!"3.141592653589793238462643383279502884197", zeros 8, .ok (.f 4614256656552045848)⟩,
    /- 421 -/ ⟨b!"-3.141592653589793238462643383279502884197", zeros 8, .ok (.f 13837628693406821656)⟩,
    /- 424 -/ ⟨b!"3.4028235e38", zeros 8, .ok (.f 5183643170655547384)⟩,
    /- 425 -/ ⟨b!"1.7976931348623157e308", zeros 8, .ok (.f 9218868437227405311)⟩,
    /- 426 -/ ⟨b!"1.7976931348623157e-308", zeros 8, .ok (.f 3638571412512157)⟩,
    /- 427 -/ ⟨b!"1.4e-45", zeros 8, .ok (.f 3936137728114922858)⟩,
    /- 428 -/ ⟨b!"-1.7976931348623157e308", zeros 8, .ok (.f 18442240474082181119)⟩,
    /- 429 -/ ⟨b!"3.4e38", zeros 8, .ok (.f 5183635696913276845)⟩,
    /- 430 -/ ⟨b!"-3.4e38", zeros 8, .ok (.f 14407007733768052653)⟩,
    /- 431 -/ ⟨b!"6.022e23", zeros 8, .ok (.f 4962933069378480659)⟩,
    /- 433 -/ ⟨b!"1e309", zeros 8, .err 0 (.parse 2)⟩,
    /- 439 -/ ⟨b!"\"text\"", zeros 8, .err 0 (.unexpectedValue)⟩,
    /- 440 -/ ⟨b!"true", zeros 8, .err 0 (.unexpectedValue)⟩,
    /- 441 -/ ⟨b!"false", zeros 8, .err 0 (.unexpectedValue)⟩,
    /- 442 -/ ⟨b!"[]", zeros 8, .err 0 (.unexpectedValue)⟩] = true := by decide +kernel

/- TestDecodeNull, jscandec_test.go:597 -/
example : session 0 ⟨false, false, false⟩ [
    /- 597 -/ ⟨b!"null", zeros 1, .ok (.b false)⟩] = true := by decide +kernel

/- TestDecodeNull, jscandec_test.go:604 -/
example : session 12 ⟨false, false, false⟩ [
    /- 604 -/ ⟨b!"null", zeros 1, .ok (.i (0))⟩] = true := by decide +kernel

/- TestDecodeNull, jscandec_test.go:608 -/
example : session 4 ⟨false, false, false⟩ [
    /- 608 -/ ⟨b!"null", zeros 4, .ok (.f 0)⟩] = true := by decide +kernel

/- TestDecodeNull, jscandec_test.go:622 -/
example : session 17 ⟨false, false, false⟩ [
    /- 622 -/ ⟨b!"[null]", zeros 24, .ok (.l [.i (0)])⟩] = true := by decide +kernel

/- TestDecodeNull, jscandec_test.go:628 -/
example : session 20 ⟨false, false, false⟩ [
    /- 628 -/ ⟨b!"[null]", zeros 24, .ok (.l [.i (0)])⟩] = true := by decide +kernel

/- TestDecodeNull, jscandec_test.go:638 -/
example : session 25 ⟨false, false, false⟩ [
    /- 638 -/ ⟨b!"[null]", zeros 24, .ok (.l [.i (0)])⟩] = true := by decide +kernel

/- TestDecodeSliceInt8, jscandec_test.go:715 -/
example : session 18 ⟨false, false, false⟩ [
    /- 716 -/ ⟨b!"[ 1, -23, 123 ]", zeros 24, .ok (.l [.i (1), .i (-23), .i (123)])⟩,
    /- 717 -/ ⟨b!"[127]", zeros 24, .ok (.l [.i (127)])⟩,
    /- 718 -/ ⟨b!"[-128]", zeros 24, .ok (.l [.i (-128)])⟩,
    /- 719 -/ ⟨b!"[ 1 ]", zeros 24, .ok (.l [.i (1)])⟩,
    /- 720 -/ ⟨b!"[]", zeros 24, .ok (.l [])⟩,
    /- 721 -/ ⟨b!"null", zeros 24, .ok (.nil)⟩,
    /- 722 -/ ⟨b!"[ null ]", zeros 24, .ok (.l [.i (0)])⟩,
    /- 723 -/ ⟨b!"[ null, 1, null ]", zeros 24, .ok (.l [.i (0), .i (1), .i (0)])⟩,
    /- 725 -/ ⟨b!"[1,2,3]", seg 24 (.slice 3 3 (seg 1 (.int (10)) ++ seg 1 (.int (20)) ++ seg 1 (.int (30)))), .ok (.l [.i (1), .i (2), .i (3)])⟩,
    /- 729 -/ ⟨b!"[1,2,3]", zeros 24, .ok (.l [.i (1), .i (2), .i (3)])⟩,
    /- 733 -/ ⟨b!"[1,2,3]", seg 24 (.slice 2 2 (seg 1 (.int (10)) ++ seg 1 (.int (20)))), .ok (.l [.i (1), .i (2), .i (3)])⟩,
    /- 737 -/ ⟨b!"[1,2,3]", seg 24 (.slice 4 4 (seg 1 (.int (10)) ++ seg 1 (.int (20)) ++ seg 1 (.int (30)) ++ seg 1 (.int (40)))), .ok (.l [.i (1), .i (2), .i (3)])⟩,
    /- 742 -/ ⟨b!"[128]", zeros 24, .err 1 (.integerOverflow)⟩,
    /- 744 -/ ⟨b!"[-129]", zeros 24, .err 1 (.integerOverflow)⟩,
    /- 746 -/ ⟨b!"{}", zeros 24, .err 0 (.unexpectedValue)⟩,
    /- 748 -/ ⟨b!"[1,3.14]", zeros 24, .err 3 (.unexpectedValue)⟩,
    /- 750 -/ ⟨b!"[1,\"nope\"]", zeros 24, .err 3 (.unexpectedValue)⟩] = true := by decide +kernel

/- TestDecodeSliceInt16, jscandec_test.go:756 -/
example : session 19 ⟨false, false, false⟩ [
    /- 757 -/ ⟨b!"[ 1, -23, 123 ]", zeros 24, .ok (.l [.i (1), .i (-23), .i (123)])⟩,
    /- 758 -/ ⟨b!"[32767]", zeros 24, .ok (.l [.i (32767)])⟩,
    /- 759 -/ ⟨b!"[-32768]", zeros 24, .ok (.l [.i (-32768)])⟩,
    /- 760 -/ ⟨b!"[ 1 ]", zeros 24, .ok (.l [.i (1)])⟩,
    /- 761 -/ ⟨b!"[]", zeros 24, .ok (.l [])⟩,
    /- 762 -/ ⟨b!"null", zeros 24, .ok (.nil)⟩,
    /- 763 -/ ⟨b!"[ null ]", zeros 24, .ok (.l [.i (0)])⟩,
    /- 764 -/ ⟨b!"[ null, 1, null ]", zeros 24, .ok (.l [.i (0), .i (1), .i (0)])⟩,
    /- 766 -/ ⟨b!"[1,2,3]", seg 24 (.slice 3 3 (seg 2 (.int (10)) ++ seg 2 (.int (20)) ++ seg 2 (.int (30)))), .ok (.l [.i (1), .i (2), .i (3)])⟩,
    /- 770 -/ ⟨b!"[1,2,3]", zeros 24, .ok (.l [.i (1), .i (2), .i (3)])⟩,
    /- 774 -/ ⟨b!"[1,2,3]", seg 24 (.slice 2 2 (seg 2 (.int (10)) ++ seg 2 (.int (20)))), .ok (.l [.i (1), .i (2), .i (3)])⟩,
    /- 778 -/ ⟨b!"[1,2,3]", seg 24 (.slice 4 4 (seg 2 (.int (10)) ++ seg 2 (.int (20)) ++ seg 2 (.int (30)) ++ seg 2 (.int (40)))), .ok (.l [.i (1), .i (2), .i (3)])⟩,
    /- 783 -/ ⟨b!"[32768]", zeros 24, .err 1 (.integerOverflow)⟩,
    /- 785 -/ ⟨b!"[-32769]", zeros 24, .err 1 (.integerOverflow)⟩,
    /- 787 -/ ⟨b!"{}", zeros 24, .err 0 (.unexpectedValue)⟩,
    /- 789 -/ ⟨b!"[1,3.14]", zeros 24, .err 3 (.unexpectedValue)⟩,
    /- 791 -/ ⟨b!"[1,\"nope\"]", zeros 24, .err 3 (.unexpectedValue)⟩] = true := by decide +kernel

/- TestDecodeSliceString, jscandec_test.go:1089 -/
example : session 16 ⟨false, false, false⟩ [
    /- 1090 -/ ⟨b!"[ \"a\", \"\", \"cde\" ]", zeros 24, .ok (.l [.s b!"a", .s [], .s b!"cde"])⟩,
    /- 1091 -/ ⟨b!"[ \"abc\" ]", zeros 24, .ok (.l [.s b!"abc"])⟩,
    /- 1092 -/ ⟨b!"[ \"\\\"abc\\tdef\\\"\" ]", zeros 24, .ok (.l [.s [34, 97, 98, 99, 9, 100, 101, 102, 34]])⟩,
    /- 1093 -/ ⟨[91, 34, 208, 182, 208, 183, 209, 136, 34, 44, 34, 227, 131, 132, 33, 34, 93], zeros 24, .ok (.l [.s [208, 182, 208, 183, 209, 136], .s [227, 131, 132, 33]])⟩,
    /- 1094 -/ ⟨b!"[]", zeros 24, .ok (.l [])⟩,
    /- 1095 -/ ⟨b!"null", zeros 24, .ok (.nil)⟩,
    /- 1096 -/ ⟨b!"[null]", zeros 24, .ok (.l [.s []])⟩,
    /- 1097 -/ ⟨b!"[null,\"okay\",null]", zeros 24, .ok (.l [.s [], .s b!"okay", .s []])⟩,
    /- 1100 -/ ⟨b!"[\"x\",\"y\",\"z\"]", seg 24 (.slice 3 3 (seg 16 (.str ⟨b!"a", false⟩) ++ seg 16 (.str ⟨b!"b", false⟩) ++ seg 16 (.str ⟨b!"c", false⟩))), .ok (.l [.s b!"x", .s b!"y", .s b!"z"])⟩,
    /- 1104 -/ ⟨b!"[\"x\",\"y\",\"z\"]", zeros 24, .ok (.l [.s b!"x", .s b!"y", .s b!"z"])⟩,
    /- 1108 -/ ⟨b!"[\"x\",\"y\",\"z\"]", seg 24 (.slice 2 2 (seg 16 (.str ⟨b!"a", false⟩) ++ seg 16 (.str ⟨b!"b", false⟩))), .ok (.l [.s b!"x", .s b!"y", .s b!"z"])⟩,
    /- 1112 -/ ⟨b!"[\"x\",\"y\",\"z\"]", seg 24 (.slice 4 4 (seg 16 (.str ⟨b!"a", false⟩) ++ seg 16 (.str ⟨b!"b", false⟩) ++ seg 16 (.str ⟨b!"c", false⟩) ++ seg 16 (.str ⟨b!"d", false⟩))), .ok (.l [.s b!"x", .s b!"y", .s b!"z"])⟩,
    /- 1117 -/ ⟨b!"\"text\"", zeros 24, .err 0 (.unexpectedValue)⟩,
    /- 1119 -/ ⟨b!"true", zeros 24, .err 0 (.unexpectedValue)⟩,
    /- 1121 -/ ⟨b!"false", zeros 24, .err 0 (.unexpectedValue)⟩,
    /- 1123 -/ ⟨b!"{}", zeros 24, .err 0 (.unexpectedValue)⟩,
    /- 1125 -/ ⟨b!"[\"okay\",[]]", zeros 24, .err 8 (.unexpectedValue)⟩,
    /- 1127 -/ ⟨b!"[\"okay\",3.14]", zeros 24, .err 8 (.unexpectedValue)⟩] = true := by decide +kernel

/- TestDecodeArrayArrayLen0, jscandec_test.go:1606 -/
example : session 44 ⟨false, false, false⟩ [
    /- 1607 -/ ⟨b!"null", zeros 0, .ok (.l [.l [], .l []])⟩,
    /- 1608 -/ ⟨b!"[]", zeros 0, .ok (.l [.l [], .l []])⟩,
    /- 1609 -/ ⟨b!"[[],[],false,true,{},{\"x\":\"y\"},[],null,42,3.14]", zeros 0, .ok (.l [.l [], .l []])⟩,
    /- 1611 -/ ⟨b!"[[\"foo\",1.2],[\"bar\",3.4],false,true,{},{\"x\":\"y\"},[],null,42,3.14]", zeros 0, .ok (.l [.l [], .l []])⟩,
    /- 1614 -/ ⟨b!"[1,2]", zeros 0, .err 1 (.unexpectedValue)⟩,
    /- 1616 -/ ⟨b!"[{}]", zeros 0, .err 1 (.unexpectedValue)⟩,
    /- 1618 -/ ⟨b!"true", zeros 0, .err 0 (.unexpectedValue)⟩,
    /- 1620 -/ ⟨b!"false", zeros 0, .err 0 (.unexpectedValue)⟩,
    /- 1622 -/ ⟨b!"1", zeros 0, .err 0 (.unexpectedValue)⟩,
    /- 1624 -/ ⟨b!"3.14", zeros 0, .err 0 (.unexpectedValue)⟩,
    /- 1626 -/ ⟨b!"\"text\"", zeros 0, .err 0 (.unexpectedValue)⟩,
    /- 1628 -/ ⟨b!"{}", zeros 0, .err 0 (.unexpectedValue)⟩,
    /- 1630 -/ ⟨b!"{\"x\":0}", zeros 0, .err 0 (.unexpectedValue)⟩] = true := by decide +kernel

/- TestDecodeArrayEmptyStruct, jscandec_test.go:1636 -/
example : session 45 ⟨false, false, false⟩ [
    /- 1637 -/ ⟨b!"null", zeros 0, .ok (.l [.l [], .l [], .l []])⟩,
    /- 1638 -/ ⟨b!"[]", zeros 0, .ok (.l [.l [], .l [], .l []])⟩,
    /- 1639 -/ ⟨b!"[{}]", zeros 0, .ok (.l [.l [], .l [], .l []])⟩,
    /- 1640 -/ ⟨b!"[{},{},{}]", zeros 0, .ok (.l [.l [], .l [], .l []])⟩,
    /- 1641 -/ ⟨b!"[{},{},{},{},{},{},{},{}, {}]", zeros 0, .ok (.l [.l [], .l [], .l []])⟩,
    /- 1643 -/ ⟨b!"true", zeros 0, .err 0 (.unexpectedValue)⟩,
    /- 1645 -/ ⟨b!"false", zeros 0, .err 0 (.unexpectedValue)⟩,
    /- 1647 -/ ⟨b!"1", zeros 0, .err 0 (.unexpectedValue)⟩,
    /- 1649 -/ ⟨b!"\"text\"", zeros 0, .err 0 (.unexpectedValue)⟩,
    /- 1651 -/ ⟨b!"{}", zeros 0, .err 0 (.unexpectedValue)⟩,
    /- 1653 -/ ⟨b!"{\"x\":0}", zeros 0, .err 0 (.unexpectedValue)⟩] = true := by decide +kernel

/- TestDecodeStringTagInt, jscandec_test.go:2339 -/
example : session 60 ⟨false, false, false⟩ [
    /- 2340 -/ ⟨b!"{}", zeros 8, .ok (.l [.i (0)])⟩,
    /- 2341 -/ ⟨b!"null", zeros 8, .ok (.l [.i (0)])⟩,
    /- 2342 -/ ⟨b!"{\"int\":\"-9223372036854775808\"}", zeros 8, .ok (.l [.i (-9223372036854775808)])⟩,
    /- 2343 -/ ⟨b!"{\"int\":\"9223372036854775807\"}", zeros 8, .ok (.l [.i (9223372036854775807)])⟩,
    /- 2345 -/ ⟨b!"{\"int\":\"9223372036854775808\"}", zeros 8, .err 7 (.unexpectedValue)⟩,
    /- 2347 -/ ⟨b!"{\"int\":\"-9223372036854775809\"}", zeros 8, .err 7 (.unexpectedValue)⟩,
    /- 2349 -/ ⟨b!"{\"int\":\"3.14\"}", zeros 8, .err 7 (.unexpectedValue)⟩,
    /- 2351 -/ ⟨b!"{\"int\":\"3e2\"}", zeros 8, .err 7 (.unexpectedValue)⟩] = true := by decide +kernel

/- TestDecodeStringTagInt16, jscandec_test.go:2375 -/
example : session 62 ⟨false, false, false⟩ [
    /- 2376 -/ ⟨b!"{}", zeros 2, .ok (.l [.i (0)])⟩,
    /- 2377 -/ ⟨b!"null", zeros 2, .ok (.l [.i (0)])⟩,
    /- 2378 -/ ⟨b!"{\"int16\":\"-32768\"}", zeros 2, .ok (.l [.i (-32768)])⟩,
    /- 2379 -/ ⟨b!"{\"int16\":\"32767\"}", zeros 2, .ok (.l [.i (32767)])⟩,
    /- 2381 -/ ⟨b!"{\"int16\":\"32768\"}", zeros 2, .err 9 (.unexpectedValue)⟩,
    /- 2382 -/ ⟨b!"{\"int16\":\"-32769\"}", zeros 2, .err 9 (.unexpectedValue)⟩,
    /- 2383 -/ ⟨b!"{\"int16\":\"3.14\"}", zeros 2, .err 9 (.unexpectedValue)⟩,
    /- 2384 -/ ⟨b!"{\"int16\":\"3e2\"}", zeros 2, .err 9 (.unexpectedValue)⟩] = true := by decide +kernel

/- TestDecodeStringTagUint64, jscandec_test.go:2506 -/
example : session 69 ⟨false, false, false⟩ [
    /- 2507 -/ ⟨b!"{}", zeros 8, .ok (.l [.i (0)])⟩,
    /- 2508 -/ ⟨b!"null", zeros 8, .ok (.l [.i (0)])⟩,
    /- 2509 -/ ⟨b!"{\"uint64\":\"0\"}", zeros 8, .ok (.l [.i (0)])⟩,
    /- 2510 -/ ⟨b!"{\"uint64\":\"18446744073709551615\"}", zeros 8, .ok (.l [.i (18446744073709551615)])⟩,
    /- 2513 -/ ⟨b!"{\"uint64\":\"18446744073709551616\"}", zeros 8, .err 10 (.unexpectedValue)⟩,
    /- 2515 -/ ⟨b!"{\"uint64\":\"-1\"}", zeros 8, .err 10 (.unexpectedValue)⟩,
    /- 2517 -/ ⟨b!"{\"uint64\":\"3.14\"}", zeros 8, .err 10 (.unexpectedValue)⟩,
    /- 2519 -/ ⟨b!"{\"uint64\":\"3e2\"}", zeros 8, .err 10 (.unexpectedValue)⟩] = true := by decide +kernel

/- TestDecodePointerBool, jscandec_test.go:2601 -/
example : session 73 ⟨false, false, false⟩ [
    /- 2602 -/ ⟨b!"true", zeros 8, .ok (.p (.b true))⟩,
    /- 2603 -/ ⟨b!"false", zeros 8, .ok (.p (.b false))⟩,
    /- 2604 -/ ⟨b!"null", zeros 8, .ok (.nil)⟩,
    /- 2606 -/ ⟨b!"1.1", zeros 8, .err 0 (.unexpectedValue)⟩,
    /- 2607 -/ ⟨b!"[]", zeros 8, .err 0 (.unexpectedValue)⟩,
    /- 2608 -/ ⟨b!"{}", zeros 8, .err 0 (.unexpectedValue)⟩,
    /- 2609 -/ ⟨b!"\"text\"", zeros 8, .err 0 (.unexpectedValue)⟩,
    /- 2610 -/ ⟨b!"42", zeros 8, .err 0 (.unexpectedValue)⟩] = true := by decide +kernel

/- TestDecodeMapInt16ToString, jscandec_test.go:2861 -/
example : session 87 ⟨false, false, false⟩ [
    /- 2862 -/ ⟨b!"{}", zeros 8, .ok (.m [])⟩,
    /- 2863 -/ ⟨b!"null", zeros 8, .ok (.nil)⟩,
    /- 2864 -/ ⟨b!"{\"0\":0, \"-32768\":-32768, \"32767\":32767}", zeros 8, .ok (.m [(.i (0), .i (0)), (.i (-32768), .i (-32768)), (.i (32767), .i (32767))])⟩,
    /- 2867 -/ ⟨b!"{\"1\": 42}", seg 8 (.map [(.int (1), seg 8 (.int (10))), (.int (2), seg 8 (.int (20)))]), .ok (.m [(.i (1), .i (42)), (.i (2), .i (20))])⟩,
    /- 2871 -/ ⟨b!"{\"2\": 42}", seg 8 (.map [(.int (1), seg 8 (.int (10))), (.int (2), seg 8 (.int (20)))]), .ok (.m [(.i (1), .i (10)), (.i (2), .i (42))])⟩,
    /- 2875 -/ ⟨b!"{\"2\": 42, \"1\": 42, \"3\": 42}", seg 8 (.map [(.int (1), seg 8 (.int (10))), (.int (2), seg 8 (.int (20)))]), .ok (.m [(.i (1), .i (42)), (.i (2), .i (42)), (.i (3), .i (42))])⟩,
    /- 2880 -/ ⟨b!"{\"32768\":0}", zeros 8, .err 1 (.unexpectedValue)⟩,
    /- 2881 -/ ⟨b!"{\"-32769\":0}", zeros 8, .err 1 (.unexpectedValue)⟩,
    /- 2882 -/ ⟨b!"{\"3.14\":0}", zeros 8, .err 1 (.unexpectedValue)⟩,
    /- 2883 -/ ⟨b!"{\"3e2\":0}", zeros 8, .err 1 (.unexpectedValue)⟩,
    /- 2884 -/ ⟨b!"1", zeros 8, .err 0 (.unexpectedValue)⟩,
    /- 2885 -/ ⟨b!"\"text\"", zeros 8, .err 0 (.unexpectedValue)⟩,
    /- 2886 -/ ⟨b!"[]", zeros 8, .err 0 (.unexpectedValue)⟩] = true := by decide +kernel

/- TestDecodeMapUint8ToString, jscandec_test.go:2995 -/
example : session 91 ⟨false, false, false⟩ [
    /- 2996 -/ ⟨b!"{}", zeros 8, .ok (.m [])⟩,
    /- 2997 -/ ⟨b!"null", zeros 8, .ok (.nil)⟩,
    /- 2998 -/ ⟨b!"{\"0\":0, \"42\":42, \"255\":1}", zeros 8, .ok (.m [(.i (0), .i (0)), (.i (42), .i (42)), (.i (255), .i (1))])⟩,
    /- 3001 -/ ⟨b!"{\"1\": 42}", seg 8 (.map [(.int (1), seg 8 (.int (10))), (.int (2), seg 8 (.int (20)))]), .ok (.m [(.i (1), .i (42)), (.i (2), .i (20))])⟩,
    /- 3005 -/ ⟨b!"{\"2\": 42}", seg 8 (.map [(.int (1), seg 8 (.int (10))), (.int (2), seg 8 (.int (20)))]), .ok (.m [(.i (1), .i (10)), (.i (2), .i (42))])⟩,
    /- 3009 -/ ⟨b!"{\"2\": 42, \"1\": 42, \"3\": 42}", seg 8 (.map [(.int (1), seg 8 (.int (10))), (.int (2), seg 8 (.int (20)))]), .ok (.m [(.i (1), .i (42)), (.i (2), .i (42)), (.i (3), .i (42))])⟩,
    /- 3014 -/ ⟨b!"{\"256\":0}", zeros 8, .err 1 (.unexpectedValue)⟩,
    /- 3015 -/ ⟨b!"{\"-1\":0}", zeros 8, .err 1 (.unexpectedValue)⟩,
    /- 3016 -/ ⟨b!"{\"3.14\":0}", zeros 8, .err 1 (.unexpectedValue)⟩,
    /- 3017 -/ ⟨b!"{\"3e2\":0}", zeros 8, .err 1 (.unexpectedValue)⟩,
    /- 3018 -/ ⟨b!"1", zeros 8, .err 0 (.unexpectedValue)⟩,
    /- 3019 -/ ⟨b!"\"text\"", zeros 8, .err 0 (.unexpectedValue)⟩,
    /- 3020 -/ ⟨b!"[]", zeros 8, .err 0 (.unexpectedValue)⟩] = true := by decide +kernel

/- TestDecodeMapStringStruct512, jscandec_test.go:3271 -/
example : session 99 ⟨false, false, false⟩ [
    /- 3272 -/ ⟨b!"{}", zeros 8, .ok (.m [])⟩,
    /- 3273 -/ ⟨b!"null", zeros 8, .ok (.nil)⟩,
    /- 3274 -/ ⟨b!"{\"x\":{\"data\":[1,2,3]}}", zeros 8, .ok (.m [(.s b!"x", .l [.l [.i (1), .i (2), .i (3), .i (0), .i (0), .i (0), .i (0), .i (0), .i (0), .i (0), .i (0), .i (0), .i (0), .i (0), .i (0), .i (0)]])])⟩,
    /- 3276 -/ ⟨b!"{\"x\":{}}", zeros 8, .ok (.m [(.s b!"x", .l [.l [.i (0), .i (0), .i (0), .i (0), .i (0), .i (0), .i (0), .i (0), .i (0), .i (0), .i (0), .i (0), .i (0), .i (0), .i (0), .i (0)]])])⟩,
    /- 3278 -/ ⟨b!"{\"\":null}", zeros 8, .ok (.m [(.s [], .l [.l [.i (0), .i (0), .i (0), .i (0), .i (0), .i (0), .i (0), .i (0), .i (0), .i (0), .i (0), .i (0), .i (0), .i (0), .i (0), .i (0)]])])⟩,
    /- 3280 -/ ⟨b!"{\"\\u30c4\":{}}", zeros 8, .ok (.m [(.s [227, 131, 132], .l [.l [.i (0), .i (0), .i (0), .i (0), .i (0), .i (0), .i (0), .i (0), .i (0), .i (0), .i (0), .i (0), .i (0), .i (0), .i (0), .i (0)]])])⟩,
    /- 3282 -/ ⟨[123, 10, 9, 9, 9, 34, 120, 34, 58, 123, 34, 100, 97, 116, 97, 34, 58, 91, 48, 44, 49, 44, 50, 93, 125, 44, 10, 9, 9, 9, 34, 121, 34, 58, 123, 34, 100, 97, 116, 97, 34, 58, 91, 51, 44, 52, 93, 125, 10, 9, 9, 125], zeros 8, .ok (.m [(.s b!"x", .l [.l [.i (0), .i (1), .i (2), .i (0), .i (0), .i (0), .i (0), .i (0), .i (0), .i (0), .i (0), .i (0), .i (0), .i (0), .i (0), .i (0)]]), (.s b!"y", .l [.l [.i (3), .i (4), .i (0), .i (0), .i (0), .i (0), .i (0), .i (0), .i (0), .i (0), .i (0), .i (0), .i (0), .i (0), .i (0), .i (0)]])])⟩,
    /- 3291 -/ ⟨b!"null", seg 8 (.map [(.str ⟨b!"a", false⟩, zeros 16), (.str ⟨b!"b", false⟩, zeros 16)]), .ok (.nil)⟩,
    /- 3295 -/ ⟨b!"{}", seg 8 (.map [(.str ⟨b!"a", false⟩, zeros 16), (.str ⟨b!"b", false⟩, ((seg 1 (.int (1))) ++ zeros 15))]), .ok (.m [(.s b!"a", .l [.l [.i (0), .i (0), .i (0), .i (0), .i (0), .i (0), .i (0), .i (0), .i (0), .i (0), .i (0), .i (0), .i (0), .i (0), .i (0), .i (0)]]), (.s b!"b", .l [.l [.i (1), .i (0), .i (0), .i (0), .i (0), .i (0), .i (0), .i (0), .i (0), .i (0), .i (0), .i (0), .i (0), .i (0), .i (0), .i (0)]])])⟩,
    /- 3299 -/ ⟨b!"{\"c\":{\"data\":[1]}}", seg 8 (.map [(.str ⟨b!"a", false⟩, zeros 16), (.str ⟨b!"b", false⟩, zeros 16)]), .ok (.m [(.s b!"a", .l [.l [.i (0), .i (0), .i (0), .i (0), .i (0), .i (0), .i (0), .i (0), .i (0), .i (0), .i (0), .i (0), .i (0), .i (0), .i (0), .i (0)]]), (.s b!"b", .l [.l [.i (0), .i (0), .i (0), .i (0), .i (0), .i (0), .i (0), .i (0), .i (0), .i (0), .i (0), .i (0), .i (0), .i (0), .i (0), .i (0)]]), (.s b!"c", .l [.l [.i (1), .i (0), .i (0), .i (0), .i (0), .i (0), .i (0), .i (0), .i (0), .i (0), .i (0), .i (0), .i (0), .i (0), .i (0), .i (0)]])])⟩,
    /- 3303 -/ ⟨b!"{\"a\": {}}", seg 8 (.map [(.str ⟨b!"a", false⟩, zeros 16), (.str ⟨b!"b", false⟩, ((seg 1 (.int (1))) ++ zeros 15))]), .ok (.m [(.s b!"a", .l [.l [.i (0), .i (0), .i (0), .i (0), .i (0), .i (0), .i (0), .i (0), .i (0), .i (0), .i (0), .i (0), .i (0), .i (0), .i (0), .i (0)]]), (.s b!"b", .l [.l [.i (1), .i (0), .i (0), .i (0), .i (0), .i (0), .i (0), .i (0), .i (0), .i (0), .i (0), .i (0), .i (0), .i (0), .i (0), .i (0)]])])⟩,
    /- 3307 -/ ⟨b!"{\"a\": {\"data\":[9,9]}}", seg 8 (.map [(.str ⟨b!"a", false⟩, ((zeros 1) ++ (seg 1 (.int (1))) ++ (seg 1 (.int (2))) ++ (seg 1 (.int (3))) ++ (seg 1 (.int (4))) ++ (seg 1 (.int (5))) ++ zeros 10)), (.str ⟨b!"b", false⟩, ((seg 1 (.int (1))) ++ zeros 15))]), .ok (.m [(.s b!"a", .l [.l [.i (9), .i (9), .i (0), .i (0), .i (0), .i (0), .i (0), .i (0), .i (0), .i (0), .i (0), .i (0), .i (0), .i (0), .i (0), .i (0)]]), (.s b!"b", .l [.l [.i (1), .i (0), .i (0), .i (0), .i (0), .i (0), .i (0), .i (0), .i (0), .i (0), .i (0), .i (0), .i (0), .i (0), .i (0), .i (0)]])])⟩,
    /- 3314 -/ ⟨b!"1", zeros 8, .err 0 (.unexpectedValue)⟩,
    /- 3315 -/ ⟨b!"\"text\"", zeros 8, .err 0 (.unexpectedValue)⟩,
    /- 3316 -/ ⟨b!"[]", zeros 8, .err 0 (.unexpectedValue)⟩,
    /- 3317 -/ ⟨b!"{\"x\":42}", zeros 8, .err 5 (.unexpectedValue)⟩] = true := by decide +kernel

end Verif.Conform
