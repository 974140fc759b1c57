import Verif.Conform.Types
/-!
# Tests of the repository, run in the model (generated by tools/conformance)

The number in front of each test is its line in jscandec_test.go.
-/
namespace Verif.Conform
open Verif.Model Verif.Spec

/- TestDecodeUint32, jscandec_test.go:486 -/
example : session 8 ⟨false, false, false⟩ [
    /- 487 -/ ⟨b!"null", zeros 4, .ok (.i (0))⟩,
    /- 488 -/ ⟨b!"0", zeros 4, .ok (.i (0))⟩,
    /- 489 -/ ⟨b!"1", zeros 4, .ok (.i (1))⟩,
    /- 490 -/ ⟨b!"4294967295", zeros 4, .ok (.i (4294967295))⟩,
    /- 492 -/ ⟨b!"4294967296", zeros 4, .err 0 (.integerOverflow)⟩,
    /- 494 -/ ⟨b!"5000000000", zeros 4, .err 0 (.integerOverflow)⟩,
    /- 495 -/ ⟨b!"11111111111", zeros 4, .err 0 (.integerOverflow)⟩,
    /- 497 -/ ⟨b!"-1", zeros 4, .err 0 (.unexpectedValue)⟩,
    /- 498 -/ ⟨b!"\"text\"", zeros 4, .err 0 (.unexpectedValue)⟩,
    /- 499 -/ ⟨b!"true", zeros 4, .err 0 (.unexpectedValue)⟩,
    /- 500 -/ ⟨b!"false", zeros 4, .err 0 (.unexpectedValue)⟩,
    /- 501 -/ ⟨b!"[]", zeros 4, .err 0 (.unexpectedValue)⟩] = true := by decide +kernel

/- TestDecodeUint16, jscandec_test.go:523 -/
example : session 10 ⟨false, false, false⟩ [
    /- 524 -/ ⟨b!"null", zeros 2, .ok (.i (0))⟩,
    /- 525 -/ ⟨b!"0", zeros 2, .ok (.i (0))⟩,
    /- 526 -/ ⟨b!"1", zeros 2, .ok (.i (1))⟩,
    /- 527 -/ ⟨b!"65535", zeros 2, .ok (.i (65535))⟩,
    /- 529 -/ ⟨b!"65536", zeros 2, .err 0 (.integerOverflow)⟩,
    /- 530 -/ ⟨b!"70000", zeros 2, .err 0 (.integerOverflow)⟩,
    /- 531 -/ ⟨b!"111111", zeros 2, .err 0 (.integerOverflow)⟩,
    /- 533 -/ ⟨b!"-1", zeros 2, .err 0 (.unexpectedValue)⟩,
    /- 534 -/ ⟨b!"\"text\"", zeros 2, .err 0 (.unexpectedValue)⟩,
    /- 535 -/ ⟨b!"true", zeros 2, .err 0 (.unexpectedValue)⟩,
    /- 536 -/ ⟨b!"false", zeros 2, .err 0 (.unexpectedValue)⟩,
    /- 537 -/ ⟨b!"[]", zeros 2, .err 0 (.unexpectedValue)⟩] = true := by decide +kernel

/- TestDecodeNull, jscandec_test.go:599 -/
example : session 13 ⟨false, false, false⟩ [
    /- 599 -/ ⟨b!"null", zeros 1, .ok (.i (0))⟩] = true := by decide +kernel

/- TestDecodeNull, jscandec_test.go:605 -/
example : session 10 ⟨false, false, false⟩ [
    /- 605 -/ ⟨b!"null", zeros 2, .ok (.i (0))⟩] = true := by decide +kernel

/- TestDecodeNull, jscandec_test.go:609 -/
example : session 5 ⟨false, false, false⟩ [
    /- 609 -/ ⟨b!"null", zeros 8, .ok (.f 0)⟩] = true := by decide +kernel

/- TestDecodeNull, jscandec_test.go:624 -/
example : session 18 ⟨false, false, false⟩ [
    /- 624 -/ ⟨b!"[null]", zeros 24, .ok (.l [.i (0)])⟩] = true := by decide +kernel

/- TestDecodeNull, jscandec_test.go:634 -/
example : session 23 ⟨false, false, false⟩ [
    /- 634 -/ ⟨b!"[null]", zeros 24, .ok (.l [.i (0)])⟩] = true := by decide +kernel

/- TestDecodeNull, jscandec_test.go:642 -/
example : session 27 ⟨false, false, false⟩ [
    /- 642 -/ ⟨b!"[null]", zeros 24, .ok (.l [.f 0])⟩] = true := by decide +kernel

/- TestDecodeSliceUint32, jscandec_test.go:1007 -/
example : session 25 ⟨false, false, false⟩ [
    /- 1008 -/ ⟨b!"[ 1, 23, 123 ]", zeros 24, .ok (.l [.i (1), .i (23), .i (123)])⟩,
    /- 1009 -/ ⟨b!"[4294967295]", zeros 24, .ok (.l [.i (4294967295)])⟩,
    /- 1010 -/ ⟨b!"[ 1 ]", zeros 24, .ok (.l [.i (1)])⟩,
    /- 1011 -/ ⟨b!"[]", zeros 24, .ok (.l [])⟩,
    /- 1012 -/ ⟨b!"null", zeros 24, .ok (.nil)⟩,
    /- 1013 -/ ⟨b!"[ null ]", zeros 24, .ok (.l [.i (0)])⟩,
    /- 1014 -/ ⟨b!"[ null, 1, null ]", zeros 24, .ok (.l [.i (0), .i (1), .i (0)])⟩,
    /- 1016 -/ ⟨b!"[1,2,3]", seg 24 (.slice 3 3 (seg 4 (.int (10)) ++ seg 4 (.int (20)) ++ seg 4 (.int (30)))), .ok (.l [.i (1), .i (2), .i (3)])⟩,
    /- 1020 -/ ⟨b!"[1,2,3]", zeros 24, .ok (.l [.i (1), .i (2), .i (3)])⟩,
    /- 1024 -/ ⟨b!"[1,2,3]", seg 24 (.slice 2 2 (seg 4 (.int (10)) ++ seg 4 (.int (20)))), .ok (.l [.i (1), .i (2), .i (3)])⟩,
    /- 1028 -/ ⟨b!"[1,2,3]", seg 24 (.slice 4 4 (seg 4 (.int (10)) ++ seg 4 (.int (20)) ++ seg 4 (.int (30)) ++ seg 4 (.int (40)))), .ok (.l [.i (1), .i (2), .i (3)])⟩,
    /- 1033 -/ ⟨b!"[-1]", zeros 24, .err 1 (.unexpectedValue)⟩,
    /- 1035 -/ ⟨b!"[4294967296]", zeros 24, .err 1 (.integerOverflow)⟩,
    /- 1037 -/ ⟨b!"{}", zeros 24, .err 0 (.unexpectedValue)⟩,
    /- 1039 -/ ⟨b!"[1,3.14]", zeros 24, .err 3 (.unexpectedValue)⟩,
    /- 1041 -/ ⟨b!"[1,\"nope\"]", zeros 24, .err 3 (.unexpectedValue)⟩] = true := by decide +kernel

/- TestDecodeSliceUint64, jscandec_test.go:1049 -/
example : session 26 ⟨false, false, false⟩ [
    /- 1050 -/ ⟨b!"[ 1, 23, 123 ]", zeros 24, .ok (.l [.i (1), .i (23), .i (123)])⟩,
    /- 1051 -/ ⟨b!"[18446744073709551615]", zeros 24, .ok (.l [.i (18446744073709551615)])⟩,
    /- 1052 -/ ⟨b!"[ 1 ]", zeros 24, .ok (.l [.i (1)])⟩,
    /- 1053 -/ ⟨b!"[]", zeros 24, .ok (.l [])⟩,
    /- 1054 -/ ⟨b!"null", zeros 24, .ok (.nil)⟩,
    /- 1055 -/ ⟨b!"[ null ]", zeros 24, .ok (.l [.i (0)])⟩,
    /- 1056 -/ ⟨b!"[ null, 1, null ]", zeros 24, .ok (.l [.i (0), .i (1), .i (0)])⟩,
    /- 1058 -/ ⟨b!"[1,2,3]", seg 24 (.slice 3 3 (seg 8 (.int (10)) ++ seg 8 (.int (20)) ++ seg 8 (.int (30)))), .ok (.l [.i (1), .i (2), .i (3)])⟩,
    /- 1062 -/ ⟨b!"[1,2,3]", zeros 24, .ok (.l [.i (1), .i (2), .i (3)])⟩,
    /- 1066 -/ ⟨b!"[1,2,3]", seg 24 (.slice 2 2 (seg 8 (.int (10)) ++ seg 8 (.int (20)))), .ok (.l [.i (1), .i (2), .i (3)])⟩,
    /- 1070 -/ ⟨b!"[1,2,3]", seg 24 (.slice 4 4 (seg 8 (.int (10)) ++ seg 8 (.int (20)) ++ seg 8 (.int (30)) ++ seg 8 (.int (40)))), .ok (.l [.i (1), .i (2), .i (3)])⟩,
    /- 1075 -/ ⟨b!"[-1]", zeros 24, .err 1 (.unexpectedValue)⟩,
    /- 1077 -/ ⟨b!"[18446744073709551616]", zeros 24, .err 1 (.integerOverflow)⟩,
    /- 1079 -/ ⟨b!"{}", zeros 24, .err 0 (.unexpectedValue)⟩,
    /- 1081 -/ ⟨b!"[1,3.14]", zeros 24, .err 3 (.unexpectedValue)⟩,
    /- 1083 -/ ⟨b!"[1,\"nope\"]", zeros 24, .err 3 (.unexpectedValue)⟩] = true := by decide +kernel

/- TestDecodeSliceFloat64, jscandec_test.go:1230 -/
example : session 28 ⟨false, false, false⟩ [
    /- 1231 -/ ⟨b!"[0, 3.14, 2.5]", zeros 24, .ok (.l [.f 0, .f 4614253070214989087, .f 4612811918334230528])⟩,
    /- 1232 -/ ⟨b!"null", zeros 24, .ok (.nil)⟩,
    /- 1233 -/ ⟨b!"[]", zeros 24, .ok (.l [])⟩,
    /- 1234 -/ ⟨b!"[0]", zeros 24, .ok (.l [.f 0])⟩,
    /- 1235 -/ ⟨b!"[1]", zeros 24, .ok (.l [.f 4607182418800017408])⟩,
    /- 1236 -/ ⟨b!"[-1]", zeros 24, .ok (.l [.f 13830554455654793216])⟩,
    /- 1237 -/ ⟨b!"[1.0]", zeros 24, .ok (.l [.f 4607182418800017408])⟩,
    /- 1238 -/ ⟨b!"[1.000000003]", zeros 24, .ok (.l [.f 4607182418813528207])⟩,
    /- 1239 -/ ⟨b!"[9007199254740991]", zeros 24, .ok (.l [.f 4845873199050653695])⟩,
    /- 1240 -/ ⟨b!"[-9007199254740991]", zeros 24, .ok (.l [.f 14069245235905429503])⟩,
    /- 1241 -/ ⟨b!"[3.141592653589793238462643383279502884197]", zeros 24, .ok (.l [.f 4614256656552045848])⟩,
    /- 1244 -/ ⟨b!"[-3.141592653589793238462643383279502884197]", zeros 24, .ok (.l [.f 13837628693406821656])⟩,
    /- 1247 -/ ⟨b!"[3.4028235e38]", zeros 24, .ok (.l [.f 5183643170655547384])⟩,
    /- 1248 -/ ⟨b!"[1.7976931348623157e308]", zeros 24, .ok (.l [.f 9218868437227405311])⟩,
    /- 1249 -/ ⟨b!"[1.7976931348623157e-308]", zeros 24, .ok (.l [.f 3638571412512157])⟩,
    /- 1250 -/ ⟨b!"[1.4e-45]", zeros 24, .ok (.l [.f 3936137728114922858])⟩,
    /- 1251 -/ ⟨b!"[-1.7976931348623157e308]", zeros 24, .ok (.l [.f 18442240474082181119])⟩,
    /- 1252 -/ ⟨b!"[3.4e38]", zeros 24, .ok (.l [.f 5183635696913276845])⟩,
    /- 1253 -/ ⟨b!"[-3.4e38]", zeros 24, .ok (.l [.f 14407007733768052653])⟩,
    /- 1254 -/ ⟨b!"[6.022e23]", zeros 24, .ok (.l [.f 4962933069378480659])⟩,
    /- 1257 -/ ⟨b!"[1.1, 2.2, 3.3]", seg 24 (.slice 3 3 (seg 8 (.flt 4621875412584313651) ++ seg 8 (.flt 4626379012211684147) ++ seg 8 (.flt 4629221909476461773))), .ok (.l [.f 4607632778762754458, .f 4612136378390124954, .f 4614613358185178726])⟩,
    /- 1261 -/ ⟨b!"[1.1, 2.2, 3.3]", zeros 24, .ok (.l [.f 4607632778762754458, .f 4612136378390124954, .f 4614613358185178726])⟩,
    /- 1265 -/ ⟨b!"[1.1, 2.2, 3.3]", seg 24 (.slice 2 2 (seg 8 (.flt 4621875412584313651) ++ seg 8 (.flt 4626379012211684147))), .ok (.l [.f 4607632778762754458, .f 4612136378390124954, .f 4614613358185178726])⟩,
    /- 1269 -/ ⟨b!"[1.1, 2.2, 3.3]", seg 24 (.slice 4 4 (seg 8 (.flt 4621875412584313651) ++ seg 8 (.flt 4626379012211684147) ++ seg 8 (.flt 4629221909476461773) ++ seg 8 (.flt 4630882611839054643))), .ok (.l [.f 4607632778762754458, .f 4612136378390124954, .f 4614613358185178726])⟩,
    /- 1274 -/ ⟨b!"[1e309]", zeros 24, .err 1 (.parse 2)⟩,
    /- 1280 -/ ⟨b!"\"text\"", zeros 24, .err 0 (.unexpectedValue)⟩,
    /- 1282 -/ ⟨b!"true", zeros 24, .err 0 (.unexpectedValue)⟩,
    /- 1284 -/ ⟨b!"false", zeros 24, .err 0 (.unexpectedValue)⟩,
    /- 1286 -/ ⟨b!"{}", zeros 24, .err 0 (.unexpectedValue)⟩,
    /- 1288 -/ ⟨b!"[1,[]]", zeros 24, .err 3 (.unexpectedValue)⟩,
    /- 1290 -/ ⟨b!"[1,\"nope\"]", zeros 24, .err 3 (.unexpectedValue)⟩] = true := by decide +kernel

/- TestDecodeArray, jscandec_test.go:1500 -/
example : session 40 ⟨false, false, false⟩ [
    /- 1501 -/ ⟨b!"null", zeros 24, .ok (.l [.i (0), .i (0), .i (0)])⟩,
    /- 1502 -/ ⟨b!"[]", zeros 24, .ok (.l [.i (0), .i (0), .i (0)])⟩,
    /- 1503 -/ ⟨b!"[1]", zeros 24, .ok (.l [.i (1), .i (0), .i (0)])⟩,
    /- 1504 -/ ⟨b!"[1,2,3]", zeros 24, .ok (.l [.i (1), .i (2), .i (3)])⟩,
    /- 1505 -/ ⟨b!"[1,2,3,false,true,{},{\"x\":\"y\"},[],null,42,3.14]", zeros 24, .ok (.l [.i (1), .i (2), .i (3)])⟩,
    /- 1508 -/ ⟨b!"true", zeros 24, .err 0 (.unexpectedValue)⟩,
    /- 1510 -/ ⟨b!"false", zeros 24, .err 0 (.unexpectedValue)⟩,
    /- 1512 -/ ⟨b!"1", zeros 24, .err 0 (.unexpectedValue)⟩,
    /- 1514 -/ ⟨b!"3.14", zeros 24, .err 0 (.unexpectedValue)⟩,
    /- 1516 -/ ⟨b!"\"text\"", zeros 24, .err 0 (.unexpectedValue)⟩,
    /- 1518 -/ ⟨b!"{}", zeros 24, .err 0 (.unexpectedValue)⟩,
    /- 1520 -/ ⟨b!"{\"x\":0}", zeros 24, .err 0 (.unexpectedValue)⟩] = true := by decide +kernel

/- TestDecodeArray2D, jscandec_test.go:1526 -/
example : session 41 ⟨false, false, false⟩ [
    /- 1527 -/ ⟨b!"null", zeros 32, .ok (.l [.l [.i (0), .i (0)], .l [.i (0), .i (0)]])⟩,
    /- 1528 -/ ⟨b!"[]", zeros 32, .ok (.l [.l [.i (0), .i (0)], .l [.i (0), .i (0)]])⟩,
    /- 1529 -/ ⟨b!"[[]]", zeros 32, .ok (.l [.l [.i (0), .i (0)], .l [.i (0), .i (0)]])⟩,
    /- 1530 -/ ⟨b!"[[1,2],[3,4]]", zeros 32, .ok (.l [.l [.i (1), .i (2)], .l [.i (3), .i (4)]])⟩,
    /- 1531 -/ ⟨b!"[[1,2],[3,4],false,true,{},{\"x\":\"y\"},[],null,42,3.14]", zeros 32, .ok (.l [.l [.i (1), .i (2)], .l [.i (3), .i (4)]])⟩,
    /- 1533 -/ ⟨b!"[[1,2, 3,[],{}],[4,5, 6,[],{}],false,true,{},{\"x\":\"y\"},[],null,42,3.14]", zeros 32, .ok (.l [.l [.i (1), .i (2)], .l [.i (4), .i (5)]])⟩,
    /- 1537 -/ ⟨b!"true", zeros 32, .err 0 (.unexpectedValue)⟩,
    /- 1539 -/ ⟨b!"false", zeros 32, .err 0 (.unexpectedValue)⟩,
    /- 1541 -/ ⟨b!"1", zeros 32, .err 0 (.unexpectedValue)⟩,
    /- 1543 -/ ⟨b!"3.14", zeros 32, .err 0 (.unexpectedValue)⟩,
    /- 1545 -/ ⟨b!"\"text\"", zeros 32, .err 0 (.unexpectedValue)⟩,
    /- 1547 -/ ⟨b!"{}", zeros 32, .err 0 (.unexpectedValue)⟩,
    /- 1549 -/ ⟨b!"{\"x\":0}", zeros 32, .err 0 (.unexpectedValue)⟩] = true := by decide +kernel

/- TestDecodeStruct, jscandec_test.go:1663 -/
example : session 47 ⟨false, false, false⟩ [
    /- 1664 -/ ⟨b!"{\"foo\":42,\"bar\":\"bazz\"}", zeros 24, .ok (.l [.i (42), .s b!"bazz"])⟩,
    /- 1666 -/ ⟨b!"{\"bar\":\"abc\",\"foo\":1234}", zeros 24, .ok (.l [.i (1234), .s b!"abc"])⟩,
    /- 1668 -/ ⟨b!"{\"FOO\":42,\"BAR\":\"bazz\"}", zeros 24, .ok (.l [.i (42), .s b!"bazz"])⟩,
    /- 1670 -/ ⟨b!"{\"Foo\":42,\"Bar\":\"bazz\"}", zeros 24, .ok (.l [.i (42), .s b!"bazz"])⟩,
    /- 1672 -/ ⟨b!"{\"foo\":null,\"bar\":null}", zeros 24, .ok (.l [.i (0), .s []])⟩,
    /- 1674 -/ ⟨b!"{\"bar\":\"bar\"}", zeros 24, .ok (.l [.i (0), .s b!"bar"])⟩,
    /- 1676 -/ ⟨b!"{\"foo\":12345}", zeros 24, .ok (.l [.i (12345), .s []])⟩,
    /- 1678 -/ ⟨b!"{\"bar\":\"bar\",\"unknown\":42,\"foo\":102}", zeros 24, .ok (.l [.i (102), .s b!"bar"])⟩,
    /- 1680 -/ ⟨b!"{\"unknown\":42, \"unknown2\": \"bad\"}", zeros 24, .ok (.l [.i (0), .s []])⟩,
    /- 1683 -/ ⟨b!"{}", zeros 24, .ok (.l [.i (0), .s []])⟩,
    /- 1684 -/ ⟨b!"{\"faz\":42,\"baz\":\"bazz\"}", zeros 24, .ok (.l [.i (0), .s []])⟩,
    /- 1686 -/ ⟨b!"{\"foo\":42,\"bar\":\"bazz\"}", (seg 8 (.int (99))) ++ (seg 16 (.str ⟨b!"predefined", false⟩)), .ok (.l [.i (42), .s b!"bazz"])⟩,
    /- 1690 -/ ⟨b!"{\"foo\":42}", (seg 8 (.int (99))) ++ (seg 16 (.str ⟨b!"predefined", false⟩)), .ok (.l [.i (42), .s b!"predefined"])⟩,
    /- 1694 -/ ⟨b!"{\"bar\":\"newval\"}", (seg 8 (.int (99))) ++ (seg 16 (.str ⟨b!"predefined", false⟩)), .ok (.l [.i (99), .s b!"newval"])⟩,
    /- 1698 -/ ⟨b!"{\"fazz\":false}", (seg 8 (.int (99))) ++ (seg 16 (.str ⟨b!"predefined", false⟩)), .ok (.l [.i (99), .s b!"predefined"])⟩,
    /- 1703 -/ ⟨b!"1", zeros 24, .err 0 (.unexpectedValue)⟩,
    /- 1705 -/ ⟨b!"[]", zeros 24, .err 0 (.unexpectedValue)⟩,
    /- 1707 -/ ⟨b!"\"text\"", zeros 24, .err 0 (.unexpectedValue)⟩] = true := by decide +kernel

/- TestDecodeStructFields, jscandec_test.go:2224 -/
example : session 55 ⟨false, false, false⟩ [
    /- 2225 -/ ⟨b!"{\"any\":42,\"Map\":{\"foo\":\"bar\"},\"SLICE\":[1,false,\"x\"]}", zeros 48, .ok (.l [.f 4631107791820423168, .m [(.s b!"foo", .s b!"bar")], .l [.f 4607182418800017408, .b false, .s b!"x"]])⟩,
    /- 2232 -/ ⟨b!"{\"map\":{},\"slice\":[{\"1\":\"2\", \"3\":4},null,[]],\"any\":{\"x\":\"y\"}}", zeros 48, .ok (.l [.m [(.s b!"x", .s b!"y")], .m [], .l [.m [(.s b!"1", .s b!"2"), (.s b!"3", .f 4616189618054758400)], .nil, .l []]])⟩,
    /- 2239 -/ ⟨b!"{\"map\":null,\"slice\":null,\"any\":null}", zeros 48, .ok (.l [.nil, .nil, .nil])⟩,
    /- 2242 -/ ⟨[123, 34, 115, 108, 105, 99, 101, 34, 58, 91, 123, 34, 120, 34, 58, 102, 97, 108, 115, 101, 44, 34, 121, 34, 58, 52, 50, 125, 44, 123, 34, 208, 152, 208, 188, 209, 143, 34, 58, 34, 102, 111, 111, 34, 125, 44, 123, 34, 120, 34, 58, 123, 125, 125, 93, 125], zeros 48, .ok (.l [.nil, .nil, .l [.m [(.s b!"x", .b false), (.s b!"y", .f 4631107791820423168)], .m [(.s [208, 152, 208, 188, 209, 143], .s b!"foo")], .m [(.s b!"x", .m [])]]])⟩,
    /- 2250 -/ ⟨b!"null", zeros 48, .ok (.l [.nil, .nil, .nil])⟩,
    /- 2251 -/ ⟨b!"{}", zeros 48, .ok (.l [.nil, .nil, .nil])⟩,
    /- 2252 -/ ⟨b!"{\"faz\":42,\"baz\":\"bazz\"}", zeros 48, .ok (.l [.nil, .nil, .nil])⟩,
    /- 2254 -/ ⟨b!"1", zeros 48, .err 0 (.unexpectedValue)⟩,
    /- 2256 -/ ⟨b!"[]", zeros 48, .err 0 (.unexpectedValue)⟩,
    /- 2258 -/ ⟨b!"\"text\"", zeros 48, .err 0 (.unexpectedValue)⟩] = true := by decide +kernel

/- TestDecodeStringTagInt8, jscandec_test.go:2359 -/
example : session 61 ⟨false, false, false⟩ [
    /- 2360 -/ ⟨b!"{}", zeros 1, .ok (.l [.i (0)])⟩,
    /- 2361 -/ ⟨b!"null", zeros 1, .ok (.l [.i (0)])⟩,
    /- 2362 -/ ⟨b!"{\"int8\":\"-128\"}", zeros 1, .ok (.l [.i (-128)])⟩,
    /- 2363 -/ ⟨b!"{\"int8\":\"127\"}", zeros 1, .ok (.l [.i (127)])⟩,
    /- 2365 -/ ⟨b!"{\"int8\":\"128\"}", zeros 1, .err 8 (.unexpectedValue)⟩,
    /- 2366 -/ ⟨b!"{\"int8\":\"-129\"}", zeros 1, .err 8 (.unexpectedValue)⟩,
    /- 2367 -/ ⟨b!"{\"int8\":\"3.14\"}", zeros 1, .err 8 (.unexpectedValue)⟩,
    /- 2368 -/ ⟨b!"{\"int8\":\"3e2\"}", zeros 1, .err 8 (.unexpectedValue)⟩] = true := by decide +kernel

/- TestDecodeStringTagFloat32, jscandec_test.go:2527 -/
example : session 70 ⟨false, false, false⟩ [
    /- 2528 -/ ⟨b!"{}", zeros 4, .ok (.l [.f 0])⟩,
    /- 2529 -/ ⟨b!"null", zeros 4, .ok (.l [.f 0])⟩,
    /- 2530 -/ ⟨b!"{\"float32\":\"0\"}", zeros 4, .ok (.l [.f 0])⟩,
    /- 2531 -/ ⟨b!"{\"float32\":\"123\"}", zeros 4, .ok (.l [.f 1123418112])⟩,
    /- 2532 -/ ⟨b!"{\"float32\":\"-3.1415927\"}", zeros 4, .ok (.l [.f 3226013659])⟩,
    /- 2533 -/ ⟨b!"{\"float32\":\"6.022e23\"}", zeros 4, .ok (.l [.f 1727990440])⟩,
    /- 2535 -/ ⟨b!"{\"float32\":\"3.5e38\"}", zeros 4, .err 11 (.parse 2)⟩] = true := by decide +kernel

/- TestDecodeMapUint16ToString, jscandec_test.go:3025 -/
example : session 92 ⟨false, false, false⟩ [
    /- 3026 -/ ⟨b!"{}", zeros 8, .ok (.m [])⟩,
    /- 3027 -/ ⟨b!"null", zeros 8, .ok (.nil)⟩,
    /- 3028 -/ ⟨b!"{\"0\":0, \"42\":42, \"65535\":1}", zeros 8, .ok (.m [(.i (0), .i (0)), (.i (42), .i (42)), (.i (65535), .i (1))])⟩,
    /- 3031 -/ ⟨b!"{\"1\": 42}", seg 8 (.map [(.int (1), seg 8 (.int (10))), (.int (2), seg 8 (.int (20)))]), .ok (.m [(.i (1), .i (42)), (.i (2), .i (20))])⟩,
    /- 3035 -/ ⟨b!"{\"2\": 42}", seg 8 (.map [(.int (1), seg 8 (.int (10))), (.int (2), seg 8 (.int (20)))]), .ok (.m [(.i (1), .i (10)), (.i (2), .i (42))])⟩,
    /- 3039 -/ ⟨b!"{\"2\": 42, \"1\": 42, \"3\": 42}", seg 8 (.map [(.int (1), seg 8 (.int (10))), (.int (2), seg 8 (.int (20)))]), .ok (.m [(.i (1), .i (42)), (.i (2), .i (42)), (.i (3), .i (42))])⟩,
    /- 3044 -/ ⟨b!"{\"65536\":0}", zeros 8, .err 1 (.unexpectedValue)⟩,
    /- 3045 -/ ⟨b!"{\"-1\":0}", zeros 8, .err 1 (.unexpectedValue)⟩,
    /- 3046 -/ ⟨b!"{\"3.14\":0}", zeros 8, .err 1 (.unexpectedValue)⟩,
    /- 3047 -/ ⟨b!"{\"3e2\":0}", zeros 8, .err 1 (.unexpectedValue)⟩,
    /- 3048 -/ ⟨b!"1", zeros 8, .err 0 (.unexpectedValue)⟩,
    /- 3049 -/ ⟨b!"\"text\"", zeros 8, .err 0 (.unexpectedValue)⟩,
    /- 3050 -/ ⟨b!"[]", zeros 8, .err 0 (.unexpectedValue)⟩] = true := by decide +kernel

/- TestDecodeJSONUnmarshaler, jscandec_test.go:3321 -/
example : session 102 ⟨false, false, false⟩ [
    /- 3322 -/ ⟨b!"123", zeros 16, .ok (.s b!"123")⟩,
    /- 3323 -/ ⟨b!"3.14", zeros 16, .ok (.s b!"3.14")⟩,
    /- 3324 -/ ⟨b!"\"okay\"", zeros 16, .ok (.s b!"\"okay\"")⟩,
    /- 3325 -/ ⟨b!"true", zeros 16, .ok (.s b!"true")⟩,
    /- 3326 -/ ⟨b!"false", zeros 16, .ok (.s b!"false")⟩,
    /- 3327 -/ ⟨b!"null", zeros 16, .ok (.s b!"null")⟩,
    /- 3328 -/ ⟨b!"[]", zeros 16, .ok (.s b!"[]")⟩,
    /- 3329 -/ ⟨b!"[1,\"okay\",true,{ }]", zeros 16, .ok (.s b!"[1,\"okay\",true,{ }]")⟩,
    /- 3331 -/ ⟨b!"{}", zeros 16, .ok (.s b!"{}")⟩,
    /- 3332 -/ ⟨b!"{\"foo\":{\"bar\":\"baz\"}}", zeros 16, .ok (.s b!"{\"foo\":{\"bar\":\"baz\"}}")⟩] = true := by decide +kernel

/- TestDecodeTextUnmarshalerMapKey, jscandec_test.go:3356 -/
example : session 104 ⟨false, false, false⟩ [
    /- 3357 -/ ⟨b!"{}", zeros 8, .ok (.m [])⟩,
    /- 3358 -/ ⟨b!"null", zeros 8, .ok (.nil)⟩,
    /- 3359 -/ ⟨b!"{\"text\":1}", zeros 8, .ok (.m [(.s b!"text", .i (1))])⟩,
    /- 3360 -/ ⟨b!"{\"\":2}", zeros 8, .ok (.m [(.s [], .i (2))])⟩,
    /- 3361 -/ ⟨b!"{\"\\\"escaped\\tkey\\\"\":3}", zeros 8, .ok (.m [(.s [34, 101, 115, 99, 97, 112, 101, 100, 9, 107, 101, 121, 34], .i (3))])⟩,
    /- 3364 -/ ⟨b!"123", zeros 8, .err 0 (.unexpectedValue)⟩,
    /- 3365 -/ ⟨b!"3.14", zeros 8, .err 0 (.unexpectedValue)⟩,
    /- 3366 -/ ⟨b!"true", zeros 8, .err 0 (.unexpectedValue)⟩,
    /- 3367 -/ ⟨b!"false", zeros 8, .err 0 (.unexpectedValue)⟩,
    /- 3368 -/ ⟨b!"true", zeros 8, .err 0 (.unexpectedValue)⟩,
    /- 3369 -/ ⟨b!"[]", zeros 8, .err 0 (.unexpectedValue)⟩,
    /- 3370 -/ ⟨b!"[\"foo\"]", zeros 8, .err 0 (.unexpectedValue)⟩,
    /- 3371 -/ ⟨b!"{\"foo\":\"bar\"}", zeros 8, .err 7 (.unexpectedValue)⟩] = true := by decide +kernel

/- TestDecodeNumber, jscandec_test.go:3574 -/
example : session 111 ⟨false, false, false⟩ [
    /- 3587 -/ ⟨b!"null", zeros 16, .ok (.s [])⟩,
    /- 3588 -/ ⟨b!"0", zeros 16, .ok (.s b!"0")⟩,
    /- 3589 -/ ⟨b!"1", zeros 16, .ok (.s b!"1")⟩,
    /- 3590 -/ ⟨b!"-1", zeros 16, .ok (.s b!"-1")⟩,
    /- 3591 -/ ⟨b!"-2147483648", zeros 16, .ok (.s b!"-2147483648")⟩,
    /- 3592 -/ ⟨b!"2147483647", zeros 16, .ok (.s b!"2147483647")⟩,
    /- 3593 -/ ⟨b!"-9223372036854775808", zeros 16, .ok (.s b!"-9223372036854775808")⟩,
    /- 3594 -/ ⟨b!"9223372036854775807", zeros 16, .ok (.s b!"9223372036854775807")⟩,
    /- 3595 -/ ⟨b!"9223372036854775808", zeros 16, .ok (.s b!"9223372036854775808")⟩,
    /- 3596 -/ ⟨b!"-9223372036854775809", zeros 16, .ok (.s b!"-9223372036854775809")⟩,
    /- 3597 -/ ⟨b!"123456789012345678901234567890123456789012345678901234567890", zeros 16, .ok (.s b!"123456789012345678901234567890123456789012345678901234567890")⟩,
    /- 3599 -/ ⟨b!"0.1", zeros 16, .ok (.s b!"0.1")⟩,
    /- 3600 -/ ⟨b!"-0.1", zeros 16, .ok (.s b!"-0.1")⟩,
    /- 3601 -/ ⟨b!"1234567890123456789012345678901234567890123456789012345678901234567890.0", zeros 16, .ok (.s b!"1234567890123456789012345678901234567890123456789012345678901234567890.0")⟩,
    /- 3604 -/ ⟨b!"0.1234567890123456789012345678901234567890123456789012345678901234567890", zeros 16, .ok (.s b!"0.1234567890123456789012345678901234567890123456789012345678901234567890")⟩,
    /- 3607 -/ ⟨b!"1234567890123456789012345678901234567890.123456789012345678901234567890", zeros 16, .ok (.s b!"1234567890123456789012345678901234567890.123456789012345678901234567890")⟩,
    /- 3610 -/ ⟨b!"1234e1234", zeros 16, .ok (.s b!"1234e1234")⟩,
    /- 3611 -/ ⟨b!"1234E1234", zeros 16, .ok (.s b!"1234E1234")⟩,
    /- 3612 -/ ⟨b!"1234E-1234", zeros 16, .ok (.s b!"1234E-1234")⟩,
    /- 3614 -/ ⟨b!"\"0\"", zeros 16, .ok (.s b!"0")⟩,
    /- 3615 -/ ⟨b!"\"1\"", zeros 16, .ok (.s b!"1")⟩,
    /- 3616 -/ ⟨b!"\"-1\"", zeros 16, .ok (.s b!"-1")⟩,
    /- 3617 -/ ⟨b!"\"-2147483648\"", zeros 16, .ok (.s b!"-2147483648")⟩,
    /- 3618 -/ ⟨b!"\"2147483647\"", zeros 16, .ok (.s b!"2147483647")⟩,
    /- 3619 -/ ⟨b!"\"-9223372036854775808\"", zeros 16, .ok (.s b!"-9223372036854775808")⟩,
    /- 3620 -/ ⟨b!"\"9223372036854775807\"", zeros 16, .ok (.s b!"9223372036854775807")⟩,
    /- 3621 -/ ⟨b!"\"9223372036854775808\"", zeros 16, .ok (.s b!"9223372036854775808")⟩,
    /- 3622 -/ ⟨b!"\"-9223372036854775809\"", zeros 16, .ok (.s b!"-9223372036854775809")⟩,
    /- 3623 -/ ⟨b!"\"123456789012345678901234567890123456789012345678901234567890\"", zeros 16, .ok (.s b!"123456789012345678901234567890123456789012345678901234567890")⟩,
    /- 3626 -/ ⟨b!"\"0.1\"", zeros 16, .ok (.s b!"0.1")⟩,
    /- 3627 -/ ⟨b!"\"-0.1\"", zeros 16, .ok (.s b!"-0.1")⟩,
    /- 3628 -/ ⟨b!"\"1234567890123456789012345678901234567890123456789012345678901234567890.0\"", zeros 16, .ok (.s b!"1234567890123456789012345678901234567890123456789012345678901234567890.0")⟩,
    /- 3631 -/ ⟨b!"\"0.1234567890123456789012345678901234567890123456789012345678901234567890\"", zeros 16, .ok (.s b!"0.1234567890123456789012345678901234567890123456789012345678901234567890")⟩,
    /- 3634 -/ ⟨b!"\"1234567890123456789012345678901234567890.123456789012345678901234567890\"", zeros 16, .ok (.s b!"1234567890123456789012345678901234567890.123456789012345678901234567890")⟩,
    /- 3637 -/ ⟨b!"\"1234e1234\"", zeros 16, .ok (.s b!"1234e1234")⟩,
    /- 3638 -/ ⟨b!"\"1234E1234\"", zeros 16, .ok (.s b!"1234E1234")⟩,
    /- 3639 -/ ⟨b!"\"1234E-1234\"", zeros 16, .ok (.s b!"1234E-1234")⟩,
    /- 3641 -/ ⟨b!"true", zeros 16, .err 0 (.unexpectedValue)⟩,
    /- 3643 -/ ⟨b!"false", zeros 16, .err 0 (.unexpectedValue)⟩,
    /- 3645 -/ ⟨b!"[]", zeros 16, .err 0 (.unexpectedValue)⟩,
    /- 3647 -/ ⟨b!"{}", zeros 16, .err 0 (.unexpectedValue)⟩,
    /- 3662 -/ ⟨b!"0", zeros 16, .ok (.s b!"0")⟩,
    /- 3663 -/ ⟨b!"-123", zeros 16, .ok (.s b!"-123")⟩,
    /- 3664 -/ ⟨b!"-9223372036854775808", zeros 16, .ok (.s b!"-9223372036854775808")⟩,
    /- 3665 -/ ⟨b!"9223372036854775807", zeros 16, .ok (.s b!"9223372036854775807")⟩,
    /- 3666 -/ ⟨b!"\"0\"", zeros 16, .ok (.s b!"0")⟩,
    /- 3667 -/ ⟨b!"\"-123\"", zeros 16, .ok (.s b!"-123")⟩,
    /- 3668 -/ ⟨b!"\"-9223372036854775808\"", zeros 16, .ok (.s b!"-9223372036854775808")⟩,
    /- 3669 -/ ⟨b!"\"9223372036854775807\"", zeros 16, .ok (.s b!"9223372036854775807")⟩,
    /- 3683 -/ ⟨b!"0", zeros 16, .ok (.s b!"0")⟩,
    /- 3684 -/ ⟨b!"-123", zeros 16, .ok (.s b!"-123")⟩,
    /- 3685 -/ ⟨b!"-9223372036854775808", zeros 16, .ok (.s b!"-9223372036854775808")⟩,
    /- 3686 -/ ⟨b!"9223372036854775807", zeros 16, .ok (.s b!"9223372036854775807")⟩,
    /- 3687 -/ ⟨b!"1e24", zeros 16, .ok (.s b!"1e24")⟩,
    /- 3688 -/ ⟨b!"3.14159", zeros 16, .ok (.s b!"3.14159")⟩,
    /- 3689 -/ ⟨b!"\"0\"", zeros 16, .ok (.s b!"0")⟩,
    /- 3690 -/ ⟨b!"\"-123\"", zeros 16, .ok (.s b!"-123")⟩,
    /- 3691 -/ ⟨b!"\"-9223372036854775808\"", zeros 16, .ok (.s b!"-9223372036854775808")⟩,
    /- 3692 -/ ⟨b!"\"9223372036854775807\"", zeros 16, .ok (.s b!"9223372036854775807")⟩,
    /- 3693 -/ ⟨b!"\"1e24\"", zeros 16, .ok (.s b!"1e24")⟩,
    /- 3694 -/ ⟨b!"\"3.14159\"", zeros 16, .ok (.s b!"3.14159")⟩] = true := by decide +kernel

/- TestEscapedStructTag, jscandec_test.go:3727 -/
example : session 113 ⟨false, false, false⟩ [
    /- 3729 -/ ⟨b!"{\"\\u0069\\u0064\":\"ok\"}", zeros 16, .ok (.l [.s b!"ok"])⟩] = true := by decide +kernel

/- TestDisableCaseInsensitiveMatching, jscandec_test.go:3762 -/
example : session 115 ⟨false, false, true⟩ [
    /- 3766 -/ ⟨b!"{\"id\":\"ok\"}", zeros 16, .ok (.l [.s b!"ok"])⟩,
    /- 3767 -/ ⟨b!"{\"ID\":\"not ok\"}", zeros 16, .ok (.l [.s []])⟩,
    /- 3774 -/ ⟨b!"{\"Id\":\"not ok\"}", zeros 16, .ok (.l [.s []])⟩] = true := by decide +kernel

end Verif.Conform
