import Verif.Conform.Types
/-!
# Tests of the repository, run in the model (generated by tools/conformance)

The number in front of each test is its line in jscandec_test.go.
-/
namespace Verif.Conform
open Verif.Model Verif.Spec

/- TestDecodeInt32, jscandec_test.go:505 -/
example : session 9 ⟨false, false, false⟩ [
    /- 506 -/ ⟨b!"null", zeros 4, .ok (.i (0))⟩,
    /- 507 -/ ⟨b!"0", zeros 4, .ok (.i (0))⟩,
    /- 508 -/ ⟨b!"1", zeros 4, .ok (.i (1))⟩,
    /- 509 -/ ⟨b!"-1", zeros 4, .ok (.i (-1))⟩,
    /- 510 -/ ⟨b!"-2147483648", zeros 4, .ok (.i (-2147483648))⟩,
    /- 511 -/ ⟨b!"2147483647", zeros 4, .ok (.i (2147483647))⟩,
    /- 513 -/ ⟨b!"2147483648", zeros 4, .err 0 (.integerOverflow)⟩,
    /- 514 -/ ⟨b!"-2147483649", zeros 4, .err 0 (.integerOverflow)⟩,
    /- 516 -/ ⟨b!"\"text\"", zeros 4, .err 0 (.unexpectedValue)⟩,
    /- 517 -/ ⟨b!"true", zeros 4, .err 0 (.unexpectedValue)⟩,
    /- 518 -/ ⟨b!"false", zeros 4, .err 0 (.unexpectedValue)⟩,
    /- 519 -/ ⟨b!"[]", zeros 4, .err 0 (.unexpectedValue)⟩] = true := by decide +kernel

/- TestDecodeNull, jscandec_test.go:598 -/
example : session 3 ⟨false, false, false⟩ [
    /- 598 -/ ⟨b!"null", zeros 8, .ok (.i (0))⟩] = true := by decide +kernel

/- TestDecodeNull, jscandec_test.go:603 -/
example : session 2 ⟨false, false, false⟩ [
    /- 603 -/ ⟨b!"null", zeros 8, .ok (.i (0))⟩] = true := by decide +kernel

/- TestDecodeNull, jscandec_test.go:614 -/
example : session 16 ⟨false, false, false⟩ [
    /- 614 -/ ⟨b!"null", zeros 24, .ok (.nil)⟩] = true := by decide +kernel

/- TestDecodeNull, jscandec_test.go:620 -/
example : session 16 ⟨false, false, false⟩ [
    /- 620 -/ ⟨b!"[null]", zeros 24, .ok (.l [.s []])⟩] = true := by decide +kernel

/- TestDecodeNull, jscandec_test.go:632 -/
example : session 22 ⟨false, false, false⟩ [
    /- 632 -/ ⟨b!"[null]", zeros 24, .ok (.l [.i (0)])⟩] = true := by decide +kernel

/- TestDecodeSliceInt, jscandec_test.go:674 -/
example : session 17 ⟨false, false, false⟩ [
    /- 675 -/ ⟨b!"[ 1, -23, 456 ]", zeros 24, .ok (.l [.i (1), .i (-23), .i (456)])⟩,
    /- 676 -/ ⟨b!"[9223372036854775807]", zeros 24, .ok (.l [.i (9223372036854775807)])⟩,
    /- 677 -/ ⟨b!"[-9223372036854775808]", zeros 24, .ok (.l [.i (-9223372036854775808)])⟩,
    /- 678 -/ ⟨b!"[ 1 ]", zeros 24, .ok (.l [.i (1)])⟩,
    /- 679 -/ ⟨b!"[]", zeros 24, .ok (.l [])⟩,
    /- 680 -/ ⟨b!"null", zeros 24, .ok (.nil)⟩,
    /- 681 -/ ⟨b!"[ null ]", zeros 24, .ok (.l [.i (0)])⟩,
    /- 682 -/ ⟨b!"[ null, 1, null ]", zeros 24, .ok (.l [.i (0), .i (1), .i (0)])⟩,
    /- 684 -/ ⟨b!"[1,2,3]", seg 24 (.slice 3 3 (seg 8 (.int (10)) ++ seg 8 (.int (20)) ++ seg 8 (.int (30)))), .ok (.l [.i (1), .i (2), .i (3)])⟩,
    /- 688 -/ ⟨b!"[1,2,3]", zeros 24, .ok (.l [.i (1), .i (2), .i (3)])⟩,
    /- 692 -/ ⟨b!"[1,2,3]", seg 24 (.slice 2 2 (seg 8 (.int (10)) ++ seg 8 (.int (20)))), .ok (.l [.i (1), .i (2), .i (3)])⟩,
    /- 696 -/ ⟨b!"[1,2,3]", seg 24 (.slice 4 4 (seg 8 (.int (10)) ++ seg 8 (.int (20)) ++ seg 8 (.int (30)) ++ seg 8 (.int (40)))), .ok (.l [.i (1), .i (2), .i (3)])⟩,
    /- 701 -/ ⟨b!"[9223372036854775808]", zeros 24, .err 1 (.integerOverflow)⟩,
    /- 703 -/ ⟨b!"[-9223372036854775809]", zeros 24, .err 1 (.integerOverflow)⟩,
    /- 705 -/ ⟨b!"{}", zeros 24, .err 0 (.unexpectedValue)⟩,
    /- 707 -/ ⟨b!"[1,3.14]", zeros 24, .err 3 (.unexpectedValue)⟩,
    /- 709 -/ ⟨b!"[1,\"nope\"]", zeros 24, .err 3 (.unexpectedValue)⟩] = true := by decide +kernel

/- TestDecodeMatrix4Int, jscandec_test.go:1351 -/
example : session 33 ⟨false, false, false⟩ [
    /- 1352 -/ ⟨b!"null", zeros 128, .ok (.l [.l [.i (0), .i (0), .i (0), .i (0)], .l [.i (0), .i (0), .i (0), .i (0)], .l [.i (0), .i (0), .i (0), .i (0)], .l [.i (0), .i (0), .i (0), .i (0)]])⟩,
    /- 1355 -/ ⟨b!"[]", zeros 128, .ok (.l [.l [.i (0), .i (0), .i (0), .i (0)], .l [.i (0), .i (0), .i (0), .i (0)], .l [.i (0), .i (0), .i (0), .i (0)], .l [.i (0), .i (0), .i (0), .i (0)]])⟩,
    /- 1358 -/ ⟨b!"[[0,1,2,3],[4,5,6,7],[8,9,10,11],[12,13,14,15]]", zeros 128, .ok (.l [.l [.i (0), .i (1), .i (2), .i (3)], .l [.i (4), .i (5), .i (6), .i (7)], .l [.i (8), .i (9), .i (10), .i (11)], .l [.i (12), .i (13), .i (14), .i (15)]])⟩,
    /- 1361 -/ ⟨b!"[[1],[2,3],[4,5,6],[]]", zeros 128, .ok (.l [.l [.i (1), .i (0), .i (0), .i (0)], .l [.i (2), .i (3), .i (0), .i (0)], .l [.i (4), .i (5), .i (6), .i (0)], .l [.i (0), .i (0), .i (0), .i (0)]])⟩,
    /- 1364 -/ ⟨b!"[[],[]]", zeros 128, .ok (.l [.l [.i (0), .i (0), .i (0), .i (0)], .l [.i (0), .i (0), .i (0), .i (0)], .l [.i (0), .i (0), .i (0), .i (0)], .l [.i (0), .i (0), .i (0), .i (0)]])⟩,
    /- 1367 -/ ⟨b!"[[1,2,3,4,  5],[6,7,8,9,  10,11,12,13,14]]", zeros 128, .ok (.l [.l [.i (1), .i (2), .i (3), .i (4)], .l [.i (6), .i (7), .i (8), .i (9)], .l [.i (0), .i (0), .i (0), .i (0)], .l [.i (0), .i (0), .i (0), .i (0)]])⟩,
    /- 1370 -/ ⟨b!"[[1,2,3,4],[5,6,7,8],[9,10,11,12],[13,14,15,16],  [17]]", zeros 128, .ok (.l [.l [.i (1), .i (2), .i (3), .i (4)], .l [.i (5), .i (6), .i (7), .i (8)], .l [.i (9), .i (10), .i (11), .i (12)], .l [.i (13), .i (14), .i (15), .i (16)]])⟩] = true := by decide +kernel

/- TestDecodeSliceEmptyStruct, jscandec_test.go:1401 -/
example : session 36 ⟨false, false, false⟩ [
    /- 1402 -/ ⟨b!"null", zeros 24, .ok (.nil)⟩,
    /- 1403 -/ ⟨b!"[]", zeros 24, .ok (.l [])⟩,
    /- 1404 -/ ⟨b!"[{}]", zeros 24, .ok (.l [.l []])⟩,
    /- 1405 -/ ⟨b!"[{},{},{}]", zeros 24, .ok (.l [.l [], .l [], .l []])⟩,
    /- 1407 -/ ⟨b!"[{}, null, {}]", seg 24 (.slice 3 3 (zeros 0 ++ zeros 0 ++ zeros 0)), .ok (.l [.l [], .l [], .l []])⟩,
    /- 1411 -/ ⟨b!"[{}, null, {}]", zeros 24, .ok (.l [.l [], .l [], .l []])⟩,
    /- 1415 -/ ⟨b!"[{}, null, {}]", seg 24 (.slice 2 2 (zeros 0 ++ zeros 0)), .ok (.l [.l [], .l [], .l []])⟩,
    /- 1419 -/ ⟨b!"[{}, null, {}]", seg 24 (.slice 4 4 (zeros 0 ++ zeros 0 ++ zeros 0 ++ zeros 0)), .ok (.l [.l [], .l [], .l []])⟩,
    /- 1424 -/ ⟨b!"true", zeros 24, .err 0 (.unexpectedValue)⟩,
    /- 1426 -/ ⟨b!"false", zeros 24, .err 0 (.unexpectedValue)⟩,
    /- 1428 -/ ⟨b!"1", zeros 24, .err 0 (.unexpectedValue)⟩,
    /- 1430 -/ ⟨b!"\"text\"", zeros 24, .err 0 (.unexpectedValue)⟩,
    /- 1432 -/ ⟨b!"{}", zeros 24, .err 0 (.unexpectedValue)⟩,
    /- 1434 -/ ⟨b!"{\"x\":0}", zeros 24, .err 0 (.unexpectedValue)⟩] = true := by decide +kernel

/- TestDecodeStructRecursivePtr, jscandec_test.go:1717 -/
example : session 48 ⟨false, false, false⟩ [
    /- 1718 -/ ⟨b!"null", zeros 40, .ok (.l [.s [], .s [], .nil])⟩,
    /- 1719 -/ ⟨b!"{}", zeros 40, .ok (.l [.s [], .s [], .nil])⟩,
    /- 1720 -/ ⟨b!"{\"id\":\"root\"}", zeros 40, .ok (.l [.s b!"root", .s [], .nil])⟩,
    /- 1721 -/ ⟨b!"{\"id\":\"root\",\"recurse\":{\"id\":\"level2\", \"name\": \"Level 2\"}}", zeros 40, .ok (.l [.s b!"root", .s [], .p (.l [.s b!"level2", .s b!"Level 2", .nil])])⟩,
    /- 1724 -/ ⟨[123, 10, 9, 9, 9, 34, 105, 100, 34, 58, 32, 34, 114, 111, 111, 116, 34, 44, 10, 9, 9, 9, 34, 114, 101, 99, 117, 114, 115, 101, 34, 58, 32, 123, 10, 9, 9, 9, 9, 34, 105, 100, 34, 58, 32, 34, 108, 101, 118, 101, 108, 50, 34, 44, 10, 9, 9, 9, 9, 34, 114, 101, 99, 117, 114, 115, 101, 34, 58, 32, 123, 10, 9, 9, 9, 9, 9, 34, 105, 100, 34, 58, 32, 34, 108, 101, 118, 101, 108, 51, 34, 10, 9, 9, 9, 9, 125, 10, 9, 9, 9, 125, 10, 9, 9, 125], zeros 40, .ok (.l [.s b!"root", .s [], .p (.l [.s b!"level2", .s [], .p (.l [.s b!"level3", .s [], .nil])])])⟩,
    /- 1735 -/ ⟨[123, 10, 9, 9, 9, 34, 114, 101, 99, 117, 114, 115, 101, 34, 58, 32, 123, 10, 9, 9, 9, 9, 34, 114, 101, 99, 117, 114, 115, 101, 34, 58, 32, 123, 10, 9, 9, 9, 9, 9, 34, 105, 100, 34, 58, 32, 34, 108, 101, 118, 101, 108, 51, 34, 10, 9, 9, 9, 9, 125, 44, 10, 9, 9, 9, 9, 34, 105, 100, 34, 58, 32, 34, 108, 101, 118, 101, 108, 50, 34, 10, 9, 9, 9, 125, 44, 10, 9, 9, 9, 34, 105, 100, 34, 58, 32, 34, 114, 111, 111, 116, 34, 10, 9, 9, 125], zeros 40, .ok (.l [.s b!"root", .s [], .p (.l [.s b!"level2", .s [], .p (.l [.s b!"level3", .s [], .nil])])])⟩,
    /- 1746 -/ ⟨[123, 10, 9, 9, 9, 34, 114, 101, 99, 117, 114, 115, 101, 34, 58, 32, 123, 10, 9, 9, 9, 9, 34, 114, 101, 99, 117, 114, 115, 101, 34, 58, 32, 123, 125, 10, 9, 9, 9, 125, 10, 9, 9, 125], zeros 40, .ok (.l [.s [], .s [], .p (.l [.s [], .s [], .p (.l [.s [], .s [], .nil])])])⟩,
    /- 1753 -/ ⟨[123, 10, 9, 9, 9, 34, 105, 100, 34, 58, 32, 34, 114, 111, 111, 116, 34, 44, 10, 9, 9, 9, 34, 114, 101, 99, 117, 114, 115, 101, 34, 58, 32, 110, 117, 108, 108, 10, 9, 9, 125], zeros 40, .ok (.l [.s b!"root", .s [], .nil])⟩,
    /- 1759 -/ ⟨[123, 10, 9, 9, 9, 34, 105, 100, 34, 58, 32, 34, 114, 111, 111, 116, 34, 44, 10, 9, 9, 9, 34, 114, 101, 99, 117, 114, 115, 101, 34, 58, 32, 123, 125, 10, 9, 9, 125], zeros 40, .ok (.l [.s b!"root", .s [], .p (.l [.s [], .s [], .nil])])⟩,
    /- 1765 -/ ⟨[123, 10, 9, 9, 9, 34, 105, 100, 34, 58, 32, 34, 114, 111, 111, 116, 34, 44, 10, 9, 9, 9, 34, 114, 101, 99, 117, 114, 115, 101, 34, 58, 32, 123, 10, 9, 9, 9, 9, 34, 105, 100, 34, 58, 34, 108, 101, 118, 101, 108, 50, 34, 44, 10, 9, 9, 9, 9, 34, 114, 101, 99, 117, 114, 115, 101, 34, 58, 32, 110, 117, 108, 108, 10, 9, 9, 9, 125, 10, 9, 9, 125], zeros 40, .ok (.l [.s b!"root", .s [], .p (.l [.s b!"level2", .s [], .nil])])⟩,
    /- 1774 -/ ⟨[123, 10, 9, 9, 9, 34, 105, 100, 34, 58, 32, 34, 114, 111, 111, 116, 34, 44, 10, 9, 9, 9, 34, 114, 101, 99, 117, 114, 115, 101, 34, 58, 32, 123, 10, 9, 9, 9, 9, 34, 105, 100, 34, 58, 34, 108, 101, 118, 101, 108, 50, 34, 44, 10, 9, 9, 9, 9, 34, 114, 101, 99, 117, 114, 115, 101, 34, 58, 32, 123, 125, 10, 9, 9, 9, 125, 10, 9, 9, 125], zeros 40, .ok (.l [.s b!"root", .s [], .p (.l [.s b!"level2", .s [], .p (.l [.s [], .s [], .nil])])])⟩,
    /- 1783 -/ ⟨[123, 10, 9, 9, 9, 34, 114, 101, 99, 117, 114, 115, 101, 34, 58, 32, 123, 10, 9, 9, 9, 9, 34, 114, 101, 99, 117, 114, 115, 101, 34, 58, 32, 123, 10, 9, 9, 9, 9, 9, 34, 117, 110, 107, 110, 111, 119, 110, 34, 58, 91, 34, 111, 107, 97, 121, 34, 93, 10, 9, 9, 9, 9, 125, 10, 9, 9, 9, 125, 10, 9, 9, 125], zeros 40, .ok (.l [.s [], .s [], .p (.l [.s [], .s [], .p (.l [.s [], .s [], .nil])])])⟩,
    /- 1792 -/ ⟨[123, 10, 9, 9, 9, 34, 82, 69, 67, 85, 82, 83, 69, 34, 58, 32, 123, 10, 9, 9, 9, 9, 34, 82, 69, 67, 85, 82, 83, 69, 34, 58, 32, 123, 10, 9, 9, 9, 9, 9, 34, 73, 68, 34, 58, 32, 34, 108, 101, 118, 101, 108, 51, 34, 10, 9, 9, 9, 9, 125, 44, 10, 9, 9, 9, 9, 34, 73, 68, 34, 58, 32, 34, 108, 101, 118, 101, 108, 50, 34, 10, 9, 9, 9, 125, 44, 10, 9, 9, 9, 34, 73, 68, 34, 58, 32, 34, 114, 111, 111, 116, 34, 10, 9, 9, 125], zeros 40, .ok (.l [.s b!"root", .s [], .p (.l [.s b!"level2", .s [], .p (.l [.s b!"level3", .s [], .nil])])])⟩,
    /- 1804 -/ ⟨b!"{\"name\":\"Root\", \"recurse\":{\"name\": \"L2\"}}", (seg 16 (.str ⟨b!"root", false⟩)) ++ (zeros 16) ++ (seg 8 (.ptr ((seg 16 (.str ⟨b!"level2", false⟩)) ++ (zeros 16) ++ (zeros 8)))), .ok (.l [.s b!"root", .s b!"Root", .p (.l [.s b!"level2", .s b!"L2", .nil])])⟩,
    /- 1813 -/ ⟨b!"{\"name\":\"Root\", \"recurse\":null}", (seg 16 (.str ⟨b!"root", false⟩)) ++ (zeros 16) ++ (seg 8 (.ptr ((seg 16 (.str ⟨b!"level2", false⟩)) ++ (zeros 16) ++ (zeros 8)))), .ok (.l [.s b!"root", .s b!"Root", .nil])⟩,
    /- 1820 -/ ⟨b!"{\"name\":\"Root\", \"recurse\":{}}", (seg 16 (.str ⟨b!"root", false⟩)) ++ (zeros 16) ++ (seg 8 (.ptr ((seg 16 (.str ⟨b!"level2", false⟩)) ++ (zeros 16) ++ (zeros 8)))), .ok (.l [.s b!"root", .s b!"Root", .p (.l [.s b!"level2", .s [], .nil])])⟩,
    /- 1826 -/ ⟨b!"{\"name\":\"Root\", \"recurse\":{\"fuzz\":\"inexistent\"}}", (seg 16 (.str ⟨b!"root", false⟩)) ++ (zeros 16) ++ (seg 8 (.ptr ((seg 16 (.str ⟨b!"level2", false⟩)) ++ (zeros 16) ++ (zeros 8)))), .ok (.l [.s b!"root", .s b!"Root", .p (.l [.s b!"level2", .s [], .nil])])⟩,
    /- 1832 -/ ⟨b!"{\"id\":\"root\",\"recurse\":[]}", zeros 40, .err 23 (.unexpectedValue)⟩,
    /- 1834 -/ ⟨b!"{\"id\":\"root\",\"recurse\":{\"id\":\"2\",\"recurse\":\"x\"}}", zeros 40, .err 43 (.unexpectedValue)⟩,
    /- 1836 -/ ⟨b!"1", zeros 40, .err 0 (.unexpectedValue)⟩,
    /- 1838 -/ ⟨b!"[]", zeros 40, .err 0 (.unexpectedValue)⟩,
    /- 1840 -/ ⟨b!"\"text\"", zeros 40, .err 0 (.unexpectedValue)⟩] = true := by decide +kernel

/- TestDecodeStructErrUknownField, jscandec_test.go:2183 -/
example : session 54 ⟨true, false, false⟩ [
    /- 2184 -/ ⟨b!"{\"foo\":42,\"bar\":\"bazz\"}", zeros 24, .ok (.l [.i (42), .s b!"bazz"])⟩,
    /- 2186 -/ ⟨b!"{\"bar\":\"abc\",\"foo\":1234}", zeros 24, .ok (.l [.i (1234), .s b!"abc"])⟩,
    /- 2188 -/ ⟨b!"{\"FOO\":42,\"BAR\":\"bazz\"}", zeros 24, .ok (.l [.i (42), .s b!"bazz"])⟩,
    /- 2190 -/ ⟨b!"{\"Foo\":42,\"Bar\":\"bazz\"}", zeros 24, .ok (.l [.i (42), .s b!"bazz"])⟩,
    /- 2192 -/ ⟨b!"{\"foo\":null,\"bar\":null}", zeros 24, .ok (.l [.i (0), .s []])⟩,
    /- 2194 -/ ⟨b!"{\"bar\":\"bar\"}", zeros 24, .ok (.l [.i (0), .s b!"bar"])⟩,
    /- 2196 -/ ⟨b!"{\"foo\":12345}", zeros 24, .ok (.l [.i (12345), .s []])⟩,
    /- 2199 -/ ⟨b!"{}", zeros 24, .ok (.l [.i (0), .s []])⟩,
    /- 2201 -/ ⟨b!"{\"bar\":\"bar\",\"unknown\":42,\"foo\":102}", zeros 24, .err 13 (.unknownField)⟩,
    /- 2204 -/ ⟨b!"{\"unknown\":42, \"unknown2\": \"bad\"}", zeros 24, .err 1 (.unknownField)⟩,
    /- 2207 -/ ⟨b!"{\"faz\":42,\"baz\":\"bazz\"}", zeros 24, .err 1 (.unknownField)⟩,
    /- 2210 -/ ⟨b!"1", zeros 24, .err 0 (.unexpectedValue)⟩,
    /- 2212 -/ ⟨b!"[]", zeros 24, .err 0 (.unexpectedValue)⟩,
    /- 2214 -/ ⟨b!"\"text\"", zeros 24, .err 0 (.unexpectedValue)⟩] = true := by decide +kernel

/- TestDecodeStringTagInt64, jscandec_test.go:2411 -/
example : session 64 ⟨false, false, false⟩ [
    /- 2412 -/ ⟨b!"{}", zeros 8, .ok (.l [.i (0)])⟩,
    /- 2413 -/ ⟨b!"null", zeros 8, .ok (.l [.i (0)])⟩,
    /- 2414 -/ ⟨b!"{\"int64\":\"-9223372036854775808\"}", zeros 8, .ok (.l [.i (-9223372036854775808)])⟩,
    /- 2416 -/ ⟨b!"{\"int64\":\"9223372036854775807\"}", zeros 8, .ok (.l [.i (9223372036854775807)])⟩,
    /- 2419 -/ ⟨b!"{\"int64\":\"9223372036854775808\"}", zeros 8, .err 9 (.unexpectedValue)⟩,
    /- 2421 -/ ⟨b!"{\"int64\":\"-9223372036854775809\"}", zeros 8, .err 9 (.unexpectedValue)⟩,
    /- 2423 -/ ⟨b!"{\"int64\":\"3.14\"}", zeros 8, .err 9 (.unexpectedValue)⟩,
    /- 2425 -/ ⟨b!"{\"int64\":\"3e2\"}", zeros 8, .err 9 (.unexpectedValue)⟩] = true := by decide +kernel

/- TestDecodeStringTagUint, jscandec_test.go:2433 -/
example : session 65 ⟨false, false, false⟩ [
    /- 2434 -/ ⟨b!"{}", zeros 8, .ok (.l [.i (0)])⟩,
    /- 2435 -/ ⟨b!"null", zeros 8, .ok (.l [.i (0)])⟩,
    /- 2436 -/ ⟨b!"{\"uint\":\"0\"}", zeros 8, .ok (.l [.i (0)])⟩,
    /- 2437 -/ ⟨b!"{\"uint\":\"18446744073709551615\"}", zeros 8, .ok (.l [.i (18446744073709551615)])⟩,
    /- 2439 -/ ⟨b!"{\"uint\":\"18446744073709551616\"}", zeros 8, .err 8 (.unexpectedValue)⟩,
    /- 2441 -/ ⟨b!"{\"uint\":\"-1\"}", zeros 8, .err 8 (.unexpectedValue)⟩,
    /- 2443 -/ ⟨b!"{\"uint\":\"3.14\"}", zeros 8, .err 8 (.unexpectedValue)⟩,
    /- 2445 -/ ⟨b!"{\"uint\":\"3e2\"}", zeros 8, .err 8 (.unexpectedValue)⟩] = true := by decide +kernel

/- TestDecodeStringTagUint8, jscandec_test.go:2453 -/
example : session 66 ⟨false, false, false⟩ [
    /- 2454 -/ ⟨b!"{}", zeros 1, .ok (.l [.i (0)])⟩,
    /- 2455 -/ ⟨b!"null", zeros 1, .ok (.l [.i (0)])⟩,
    /- 2456 -/ ⟨b!"{\"uint8\":\"0\"}", zeros 1, .ok (.l [.i (0)])⟩,
    /- 2457 -/ ⟨b!"{\"uint8\":\"255\"}", zeros 1, .ok (.l [.i (255)])⟩,
    /- 2459 -/ ⟨b!"{\"uint8\":\"256\"}", zeros 1, .err 9 (.unexpectedValue)⟩,
    /- 2460 -/ ⟨b!"{\"uint8\":\"-1\"}", zeros 1, .err 9 (.unexpectedValue)⟩,
    /- 2461 -/ ⟨b!"{\"uint8\":\"3.14\"}", zeros 1, .err 9 (.unexpectedValue)⟩,
    /- 2462 -/ ⟨b!"{\"uint8\":\"3e2\"}", zeros 1, .err 9 (.unexpectedValue)⟩] = true := by decide +kernel

/- TestDecodePointerInt, jscandec_test.go:2588 -/
example : session 72 ⟨false, false, false⟩ [
    /- 2589 -/ ⟨b!"42", zeros 8, .ok (.p (.i (42)))⟩,
    /- 2590 -/ ⟨b!"null", zeros 8, .ok (.nil)⟩,
    /- 2592 -/ ⟨b!"1.1", zeros 8, .err 0 (.unexpectedValue)⟩,
    /- 2593 -/ ⟨b!"[]", zeros 8, .err 0 (.unexpectedValue)⟩,
    /- 2594 -/ ⟨b!"{}", zeros 8, .err 0 (.unexpectedValue)⟩,
    /- 2595 -/ ⟨b!"\"text\"", zeros 8, .err 0 (.unexpectedValue)⟩,
    /- 2596 -/ ⟨b!"false", zeros 8, .err 0 (.unexpectedValue)⟩,
    /- 2597 -/ ⟨b!"true", zeros 8, .err 0 (.unexpectedValue)⟩] = true := by decide +kernel

/- TestDecodePointerStruct, jscandec_test.go:2659 -/
example : session 77 ⟨false, false, false⟩ [
    /- 2660 -/ ⟨[123, 34, 102, 111, 111, 34, 58, 34, 226, 132, 162, 34, 44, 34, 98, 97, 114, 34, 58, 91, 49, 44, 116, 114, 117, 101, 93, 125], zeros 8, .ok (.p (.l [.s [226, 132, 162], .l [.f 4607182418800017408, .b true]]))⟩,
    /- 2664 -/ ⟨b!"{\"bar\":[1,true]}", zeros 8, .ok (.p (.l [.s [], .l [.f 4607182418800017408, .b true]]))⟩,
    /- 2665 -/ ⟨b!"{}", zeros 8, .ok (.p (.l [.s [], .nil]))⟩,
    /- 2666 -/ ⟨b!"null", zeros 8, .ok (.nil)⟩,
    /- 2668 -/ ⟨b!"1.1", zeros 8, .err 0 (.unexpectedValue)⟩,
    /- 2669 -/ ⟨b!"[]", zeros 8, .err 0 (.unexpectedValue)⟩,
    /- 2670 -/ ⟨b!"42", zeros 8, .err 0 (.unexpectedValue)⟩,
    /- 2671 -/ ⟨b!"\"text\"", zeros 8, .err 0 (.unexpectedValue)⟩,
    /- 2672 -/ ⟨b!"false", zeros 8, .err 0 (.unexpectedValue)⟩,
    /- 2673 -/ ⟨b!"true", zeros 8, .err 0 (.unexpectedValue)⟩] = true := by decide +kernel

/- TestDecodeMapUintToString, jscandec_test.go:2965 -/
example : session 90 ⟨false, false, false⟩ [
    /- 2966 -/ ⟨b!"{}", zeros 8, .ok (.m [])⟩,
    /- 2967 -/ ⟨b!"null", zeros 8, .ok (.nil)⟩,
    /- 2968 -/ ⟨b!"{\"0\":0, \"42\":42, \"18446744073709551615\":1}", zeros 8, .ok (.m [(.i (0), .i (0)), (.i (42), .i (42)), (.i (18446744073709551615), .i (1))])⟩,
    /- 2971 -/ ⟨b!"{\"1\": 42}", seg 8 (.map [(.int (1), seg 8 (.int (10))), (.int (2), seg 8 (.int (20)))]), .ok (.m [(.i (1), .i (42)), (.i (2), .i (20))])⟩,
    /- 2975 -/ ⟨b!"{\"2\": 42}", seg 8 (.map [(.int (1), seg 8 (.int (10))), (.int (2), seg 8 (.int (20)))]), .ok (.m [(.i (1), .i (10)), (.i (2), .i (42))])⟩,
    /- 2979 -/ ⟨b!"{\"2\": 42, \"1\": 42, \"3\": 42}", seg 8 (.map [(.int (1), seg 8 (.int (10))), (.int (2), seg 8 (.int (20)))]), .ok (.m [(.i (1), .i (42)), (.i (2), .i (42)), (.i (3), .i (42))])⟩,
    /- 2984 -/ ⟨b!"{\"18446744073709551616\":0}", zeros 8, .err 1 (.unexpectedValue)⟩,
    /- 2985 -/ ⟨b!"{\"-1\":0}", zeros 8, .err 1 (.unexpectedValue)⟩,
    /- 2986 -/ ⟨b!"{\"3.14\":0}", zeros 8, .err 1 (.unexpectedValue)⟩,
    /- 2987 -/ ⟨b!"{\"3e2\":0}", zeros 8, .err 1 (.unexpectedValue)⟩,
    /- 2988 -/ ⟨b!"1", zeros 8, .err 0 (.unexpectedValue)⟩,
    /- 2989 -/ ⟨b!"\"text\"", zeros 8, .err 0 (.unexpectedValue)⟩,
    /- 2990 -/ ⟨b!"[]", zeros 8, .err 0 (.unexpectedValue)⟩] = true := by decide +kernel

/- TestDecodeMapUint32ToString, jscandec_test.go:3055 -/
example : session 93 ⟨false, false, false⟩ [
    /- 3056 -/ ⟨b!"{}", zeros 8, .ok (.m [])⟩,
    /- 3057 -/ ⟨b!"null", zeros 8, .ok (.nil)⟩,
    /- 3058 -/ ⟨b!"{\"0\":0, \"42\":42, \"4294967295\":1}", zeros 8, .ok (.m [(.i (0), .i (0)), (.i (42), .i (42)), (.i (4294967295), .i (1))])⟩,
    /- 3061 -/ ⟨b!"{\"1\": 42}", seg 8 (.map [(.int (1), seg 8 (.int (10))), (.int (2), seg 8 (.int (20)))]), .ok (.m [(.i (1), .i (42)), (.i (2), .i (20))])⟩,
    /- 3065 -/ ⟨b!"{\"2\": 42}", seg 8 (.map [(.int (1), seg 8 (.int (10))), (.int (2), seg 8 (.int (20)))]), .ok (.m [(.i (1), .i (10)), (.i (2), .i (42))])⟩,
    /- 3069 -/ ⟨b!"{\"2\": 42, \"1\": 42, \"3\": 42}", seg 8 (.map [(.int (1), seg 8 (.int (10))), (.int (2), seg 8 (.int (20)))]), .ok (.m [(.i (1), .i (42)), (.i (2), .i (42)), (.i (3), .i (42))])⟩,
    /- 3074 -/ ⟨b!"{\"4294967296\":0}", zeros 8, .err 1 (.unexpectedValue)⟩,
    /- 3075 -/ ⟨b!"{\"-1\":0}", zeros 8, .err 1 (.unexpectedValue)⟩,
    /- 3076 -/ ⟨b!"{\"3.14\":0}", zeros 8, .err 1 (.unexpectedValue)⟩,
    /- 3077 -/ ⟨b!"{\"3e2\":0}", zeros 8, .err 1 (.unexpectedValue)⟩,
    /- 3078 -/ ⟨b!"1", zeros 8, .err 0 (.unexpectedValue)⟩,
    /- 3079 -/ ⟨b!"\"text\"", zeros 8, .err 0 (.unexpectedValue)⟩,
    /- 3080 -/ ⟨b!"[]", zeros 8, .err 0 (.unexpectedValue)⟩] = true := by decide +kernel

/- TestDecodeMapStringToStruct, jscandec_test.go:3198 -/
example : session 97 ⟨false, false, false⟩ [
    /- 3199 -/ ⟨b!"{}", zeros 8, .ok (.m [])⟩,
    /- 3200 -/ ⟨b!"{\"x\":{\"name\":\"first\",\"id\":1}}", zeros 8, .ok (.m [(.s b!"x", .l [.s b!"first", .i (1)])])⟩,
    /- 3202 -/ ⟨b!"{\"x\":{}}", zeros 8, .ok (.m [(.s b!"x", .l [.s [], .i (0)])])⟩,
    /- 3204 -/ ⟨b!"{\"\":null}", zeros 8, .ok (.m [(.s [], .l [.s [], .i (0)])])⟩,
    /- 3206 -/ ⟨b!"{\"\\u30c4\":{}}", zeros 8, .ok (.m [(.s [227, 131, 132], .l [.s [], .i (0)])])⟩,
    /- 3208 -/ ⟨[123, 10, 9, 9, 9, 34, 120, 34, 58, 123, 34, 110, 97, 109, 101, 34, 58, 34, 102, 105, 114, 115, 116, 34, 44, 34, 105, 100, 34, 58, 49, 125, 44, 10, 9, 9, 9, 34, 121, 34, 58, 123, 34, 110, 97, 109, 101, 34, 58, 34, 115, 101, 99, 111, 110, 100, 34, 44, 34, 105, 100, 34, 58, 50, 125, 10, 9, 9, 125], zeros 8, .ok (.m [(.s b!"x", .l [.s b!"first", .i (1)]), (.s b!"y", .l [.s b!"second", .i (2)])])⟩,
    /- 3217 -/ ⟨b!"null", seg 8 (.map [(.str ⟨b!"a", false⟩, (seg 16 (.str ⟨b!"a1", false⟩)) ++ (seg 8 (.int (1)))), (.str ⟨b!"b", false⟩, (seg 16 (.str ⟨b!"b1", false⟩)) ++ (seg 8 (.int (2))))]), .ok (.nil)⟩,
    /- 3223 -/ ⟨b!"{}", seg 8 (.map [(.str ⟨b!"a", false⟩, (seg 16 (.str ⟨b!"a1", false⟩)) ++ (seg 8 (.int (1)))), (.str ⟨b!"b", false⟩, (seg 16 (.str ⟨b!"b1", false⟩)) ++ (seg 8 (.int (2))))]), .ok (.m [(.s b!"a", .l [.s b!"a1", .i (1)]), (.s b!"b", .l [.s b!"b1", .i (2)])])⟩,
    /- 3235 -/ ⟨b!"{\"c\":{\"id\":3, \"name\":\"Bob\"}}", seg 8 (.map [(.str ⟨b!"a", false⟩, (seg 16 (.str ⟨b!"a1", false⟩)) ++ (seg 8 (.int (1)))), (.str ⟨b!"b", false⟩, (seg 16 (.str ⟨b!"b1", false⟩)) ++ (seg 8 (.int (2))))]), .ok (.m [(.s b!"a", .l [.s b!"a1", .i (1)]), (.s b!"b", .l [.s b!"b1", .i (2)]), (.s b!"c", .l [.s b!"Bob", .i (3)])])⟩,
    /- 3248 -/ ⟨b!"{\"a\": {}}", seg 8 (.map [(.str ⟨b!"a", false⟩, (seg 16 (.str ⟨b!"a1", false⟩)) ++ (seg 8 (.int (1)))), (.str ⟨b!"b", false⟩, (seg 16 (.str ⟨b!"b1", false⟩)) ++ (seg 8 (.int (2))))]), .ok (.m [(.s b!"a", .l [.s [], .i (0)]), (.s b!"b", .l [.s b!"b1", .i (2)])])⟩,
    /- 3254 -/ ⟨b!"{\"a\": {\"id\":42}}", seg 8 (.map [(.str ⟨b!"a", false⟩, (seg 16 (.str ⟨b!"a1", false⟩)) ++ (seg 8 (.int (1)))), (.str ⟨b!"b", false⟩, (seg 16 (.str ⟨b!"b1", false⟩)) ++ (seg 8 (.int (2))))]), .ok (.m [(.s b!"a", .l [.s [], .i (42)]), (.s b!"b", .l [.s b!"b1", .i (2)])])⟩,
    /- 3261 -/ ⟨b!"1", zeros 8, .err 0 (.unexpectedValue)⟩,
    /- 3262 -/ ⟨b!"\"text\"", zeros 8, .err 0 (.unexpectedValue)⟩,
    /- 3263 -/ ⟨b!"[]", zeros 8, .err 0 (.unexpectedValue)⟩,
    /- 3264 -/ ⟨b!"{\"x\":42}", zeros 8, .err 5 (.unexpectedValue)⟩] = true := by decide +kernel

/- TestDecodeJSONUnmarshalerErr, jscandec_test.go:3423 -/
example : session 107 ⟨false, false, false⟩ [
    /- 3424 -/ ⟨b!"{\"x\":\"y\"}", zeros 8, .errAny (.user 7)⟩] = true := by decide +kernel

/- TestDisableFieldNameUnescaping, jscandec_test.go:3701 -/
example : session 112 ⟨false, true, false⟩ [
    /- 3705 -/ ⟨b!"{\"id\":\"ok\"}", zeros 16, .ok (.l [.s b!"ok"])⟩,
    /- 3706 -/ ⟨b!"{\"ID\":\"ok\"}", zeros 16, .ok (.l [.s b!"ok"])⟩,
    /- 3707 -/ ⟨b!"{\"\\u0069\\u0064\":\"not ok\"}", zeros 16, .ok (.l [.s []])⟩,
    /- 3714 -/ ⟨b!"{\"\\u0049\\u0044\":\"not ok\"}", zeros 16, .ok (.l [.s []])⟩] = true := by decide +kernel

end Verif.Conform
